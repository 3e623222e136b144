import Verif.Model.Packet
/-
Histories of operations on one connection: everything in the crate that takes `&mut Connection`
(src/connection.rs `set_scid`, `get_next_pn`; src/packet.rs `PacketInitial::new`, `PacketHandshake::new`). All other functions take
`&Connection` and cannot change it.
-/
namespace QuicSea

/-- The operations: the functions taking `&mut Connection` (src/connection.rs:131-133, 232-243; src/packet.rs:223-244, 409-424). -/
inductive ConnOp where
  /-- src/connection.rs:131-133, called from src/routing.rs:177 -/
  | setScid (cid : U160) (len : Nat)
  /-- src/connection.rs:232-243 -/
  | nextPn (sp : PnSpace)
  /-- src/packet.rs:223-244 -/
  | buildInitial (payload : List Frame) (token : Option Bytes)
  /-- src/packet.rs:409-424 -/
  | buildHandshake (payload : List Frame)

/-- What an operation returns (src/connection.rs:131, 232; src/packet.rs:223, 409). -/
inductive ConnOut where
  | unit
  | pn (sp : PnSpace) (r : Out (U64 × Bytes))
  | initial (r : Out PacketInitial)
  | handshake (r : Out PacketHandshake)

/-- One operation (src/connection.rs:131-133, 232-243; src/packet.rs:223-244, 409-424). A panicking operation leaves the connection as the model functions say. -/
def Connection.step (bp : Profile) (c : Connection) : ConnOp → ConnOut × Connection
  | .setScid cid len => (.unit, c.setScid cid len)
  | .nextPn sp => (.pn sp (c.getNextPn bp sp).1, (c.getNextPn bp sp).2)
  | .buildInitial payload token => (.initial (PacketInitial.new bp payload token c).1, (PacketInitial.new bp payload token c).2)
  | .buildHandshake payload => (.handshake (PacketHandshake.new bp payload c).1, (PacketHandshake.new bp payload c).2)

/-- A history: any sequence of the operations of `ConnOp` on one connection (src/connection.rs:58-70). -/
def Connection.run (bp : Profile) (c : Connection) : List ConnOp → List ConnOut × Connection
  | [] => ([], c)
  | op :: ops =>
    let r := c.step bp op
    let rs := r.2.run bp ops
    (r.1 :: rs.1, rs.2)

/-- The number (src/connection.rs:232-243) given out by an operation, with its space and its encoding, if it succeeded. -/
def ConnOut.issued : ConnOut → Option (PnSpace × U64 × Bytes)
  | .pn sp (.ok (n, b)) => some (sp, n, b)
  | .initial (.ok p) => some (.initial, p.packetNumber, p.packetNumberBytes)
  | .handshake (.ok p) => some (.handshake, p.packetNumber, p.packetNumberBytes)
  | _ => none

/-- Connections reachable through the API: created, then any history (src/routing.rs:162-177 creates one and sets its source id). -/
def Connection.Reachable (P : Prims) (bp : Profile) (c : Connection) : Prop :=
  ∃ isServer version dcid dcidLen c0 ops, Connection.new P isServer version dcid dcidLen = .ok c0 ∧ c = (c0.run bp ops).2

/-- Which counter an operation moves: the space passed to `get_next_pn` (src/connection.rs:232-243, called from src/packet.rs:223-244 and 409-424). -/
def ConnOp.space : ConnOp → Option PnSpace
  | .setScid _ _ => none
  | .nextPn sp => some sp
  | .buildInitial _ _ => some .initial
  | .buildHandshake _ => some .handshake

/-- Numbers issued (src/connection.rs:232-243) in one space, in order. -/
def issuedIn (sp : PnSpace) (outs : List ConnOut) : List U64 :=
  outs.filterMap fun o => match o.issued with
    | some (sp', n, _) => if sp' = sp then some n else none
    | none => none

end QuicSea
