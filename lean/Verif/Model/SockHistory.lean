import Verif.Model.Routing
/-
Histories of calls on one socket by one caller at a time (several callers at once are in `Verif.Model.Concurrent`).
-/
namespace QuicSea

/-- The calls (src/routing.rs:111-197). -/
inductive SockOp where
  /-- src/routing.rs:157-187, with the network events and random ids it meets -/
  | accept (net : List NetEvent) (rng : List U64)
  /-- src/routing.rs:111-128 -/
  | route (d : Datagram)
  /-- src/routing.rs:130-148 -/
  | packets (d : Datagram)
  /-- src/routing.rs:194-197, src/interface.rs:17-22 -/
  | drop (cid : U160)
  /-- src/routing.rs:189-192 -/
  | setLog (flag : Bool)

/-- What a call returns (the signatures of src/routing.rs:46-197). -/
inductive SockRes where
  | accepted (r : Io U160) (net : List NetEvent) (rng : List U64)
  | routed (r : Out Unit)
  | decoded (r : Out (List Packet))
  | unit

/-- One call (src/routing.rs:111-197). -/
def Sock.step (P : Prims) (bp : Profile) (k : Sock) : SockOp → SockRes × Sock
  | .accept net rng =>
    let (r, k, net, rng) := k.accept P net rng
    (.accepted r net rng, k)
  | .route d =>
    let (r, k) := k.routeDatagram d
    (.routed r, k)
  | .packets d =>
    let (r, k) := k.packetsFromDatagram bp d
    (.decoded r, k)
  | .drop cid => (.unit, k.dropConnection cid)
  | .setLog flag => (.unit, k.setLogTraffic flag)

/-- A history: any sequence of the calls of `SockOp` on one socket (src/routing.rs:28-33). -/
def Sock.run (P : Prims) (bp : Profile) (k : Sock) : List SockOp → List SockRes × Sock
  | [] => ([], k)
  | op :: ops =>
    let (r, k) := k.step P bp op
    let (rs, k) := Sock.run P bp k ops
    (r :: rs, k)

end QuicSea
