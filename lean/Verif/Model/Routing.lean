import Verif.Model.Packet
/-
Model of src/routing.rs and src/interface.rs, one call at a time. The interleaving of calls of several threads is in
`Verif.Model.Concurrent`.
-/
namespace QuicSea

/-- src/routing.rs:12-16. A socket address is opaque, represented by a number. -/
structure Datagram where
  data : Bytes
  addr : Nat
deriving DecidableEq, Repr

/-- src/routing.rs:18-26 `InternalQuicStream`. `sender`/`receiver` are the two ends of one unbounded FIFO channel, modelled
by its contents. Both ends live in this struct, so sending never fails while the entry exists. -/
structure StreamState where
  queue : List Datagram
  connection : Connection

/-- src/routing.rs:35-44 `InternalQuicStream::from_connection`. -/
def StreamState.fromConnection (connection : Connection) : StreamState := { queue := [], connection }

/-- What the traffic log prints (src/routing.rs:70 and 145). -/
inductive LogLine where
  | header (h : Out PacketHeader)
  | packets (ps : List Packet)

/-- src/routing.rs:28-33 `InternalQuicSocket`. The `HashMap` is a function to `Option`; the UDP socket is an input (a list of
`NetEvent`s passed to the operations); `printed` collects standard output of the traffic log. -/
structure Sock where
  streams : U160 → Option StreamState
  logTraffic : Bool
  printed : List LogLine

/-- One result of `UdpSocket::recv_from` (src/routing.rs:64): a datagram as sent by the peer, or an I/O error. -/
inductive NetEvent where
  | datagram (raw : Bytes) (addr : Nat)
  | ioError
deriving DecidableEq, Repr

/-- Outcome of a call returning `std::io::Result` (src/routing.rs:60, 157). `blocked` means the call is still waiting when the given inputs
(network events, random ids) are used up. -/
inductive Io (α : Type u) where
  | ok (a : α)
  | ioErr
  | panic (why : String)
  | blocked
deriving Repr, DecidableEq

/-- `HashMap::insert`, as at src/routing.rs:178. -/
def tableInsert (t : U160 → Option StreamState) (k : U160) (v : StreamState) : U160 → Option StreamState :=
  fun k' => if k' = k then some v else t k'

/-- `HashMap::remove`, as at src/routing.rs:196. -/
def tableRemove (t : U160 → Option StreamState) (k : U160) : U160 → Option StreamState :=
  fun k' => if k' = k then none else t k'

namespace Sock

/-- src/routing.rs:47-59 `bind`, when binding the UDP socket succeeds. -/
def bind : Sock := { streams := fun _ => none, logTraffic := false, printed := [] }

/-- The receive buffer size of src/routing.rs:63. -/
def RECV_BUFFER_LEN : Nat := 4096

/-- src/routing.rs:60-73 `recv_datagram` for one network event. Bytes beyond the buffer are discarded by the operating system
(POSIX behaviour of `recv_from`). -/
def recvDatagram (k : Sock) : NetEvent → Io Datagram × Sock
  | .ioError => (.ioErr, k)
  | .datagram raw addr =>
    let data := raw.take RECV_BUFFER_LEN
    if k.logTraffic then
      match (nextHeaderFromStream (makeResultStream data)).1 with
      | .panic w => (.panic w, k)
      | header => (.ok { data, addr }, { k with printed := k.printed ++ [.header header] })
    else (.ok { data, addr }, k)

/-- src/routing.rs:77-103: does this datagram open a new connection? The `eprintln!` of the error branch is left out
here; see `isNewInitialP` in `Verif.Model.Env`. -/
def isNewInitial (k : Sock) (d : Datagram) : Out Bool :=
  match (nextHeaderFromStream (makeResultStream d.data)).1 with
  | .ok x => do
    let packetType ← x.getPacketType
    let dcid := x.getDestinationId
    match packetType with
    | .initial => pure (k.streams dcid).isNone
    | _ => pure false
  | .err _ => pure false
  | .panic w => .panic w

/-- src/routing.rs:111-128 `route_datagram`. -/
def routeDatagram (k : Sock) (d : Datagram) : Out Unit × Sock :=
  match (nextHeaderFromStream (makeResultStream d.data)).1 with
  | .ok routeHeader =>
    let connectionId := routeHeader.getDestinationId
    match k.streams connectionId with
    | some x => (.ok (), { k with streams := tableInsert k.streams connectionId { x with queue := x.queue ++ [d] } })
    | none => (.err (.internalError "missing connection"), k)
  | .err e => (.err e, k)
  | .panic w => (.panic w, k)

/-- src/routing.rs:74-110 `recv_new_initial_datagram`: the loop, over the network events still to come. -/
def recvNewInitialDatagram (k : Sock) : List NetEvent → Io Datagram × Sock × List NetEvent
  | [] => (.blocked, k, [])
  | e :: net =>
    match k.recvDatagram e with
    | (.ok d, k) =>
      match k.isNewInitial d with
      | .ok true => (.ok d, k, net)
      | .ok false =>
        match k.routeDatagram d with
        | (.ok (), k) => recvNewInitialDatagram k net
        | (.err _, k) => (.panic "called `Result::unwrap()` on an `Err` value", k, net)
        | (.panic w, k) => (.panic w, k, net)
      | .err _ => (.panic "model: isNewInitial has no error outcome", k, net)
      | .panic w => (.panic w, k, net)
    | (.ioErr, k) => (.ioErr, k, net)
    | (.panic w, k) => (.panic w, k, net)
    | (.blocked, k) => (.blocked, k, net)

/-- src/routing.rs:130-148 `packets_from_datagram`. -/
def packetsFromDatagram (bp : Profile) (k : Sock) (d : Datagram) : Out (List Packet) × Sock :=
  let stream := makeResultStream d.data
  match (nextHeaderFromStream stream).1 with
  | .ok header =>
    match k.streams header.getDestinationId with
    | none => (.err (.internalError "connection not found"), k)
    | some routeStream =>
      match (decodePackets bp routeStream.connection stream).1 with
      | .ok rv => (.ok rv, if k.logTraffic then { k with printed := k.printed ++ [.packets rv] } else k)
      | r => (r, k)
  | .err e => (.err e, k)
  | .panic w => (.panic w, k)

/-- src/routing.rs:150-155 `connect` is `unimplemented!()`. -/
def connect (_ : Sock) : Io U160 := .panic "not implemented"

/-- src/routing.rs:157-168: the connection `accept` creates for an initial datagram. -/
def newConnectionFor (P : Prims) (d : Datagram) : Out Connection := do
  let header ← (nextHeaderFromStream (makeResultStream d.data)).1.unwrap
  (Connection.new P true .v1 header.getDestinationId header.getDestinationIdLength.toNat).unwrap

/-- src/routing.rs:170-183: the registration loop, over the random ids still to come
(`quictls::utils::get_connection_id`, src/quictls/utils.rs:3-7). -/
def register (k : Sock) (stream : StreamState) : List U64 → Io U160 × Sock × List U64
  | [] => (.blocked, k, [])
  | srcId :: rng =>
    let key := U160.ofU64 srcId
    if (k.streams key).isNone then
      let stream := { stream with connection := stream.connection.setScid key 8 }
      (.ok key, { k with streams := tableInsert k.streams key stream }, rng)
    else register k stream rng

/-- src/routing.rs:157-187 `accept`. Line 184 looks the new entry up again and unwraps, line 185 is `todo!()`. -/
def accept (P : Prims) (k : Sock) (net : List NetEvent) (rng : List U64) :
    Io U160 × Sock × List NetEvent × List U64 :=
  match k.recvNewInitialDatagram net with
  | (.ok d, k, net) =>
    match newConnectionFor P d with
    | .ok connection =>
      match k.register (.fromConnection connection) rng with
      | (.ok rv, k, rng) =>
        match k.streams rv with
        | some _ => (.panic "not yet implemented", k, net, rng)
        | none => (.panic "called `Option::unwrap()` on a `None` value", k, net, rng)
      | (.ioErr, k, rng) => (.ioErr, k, net, rng)
      | (.panic w, k, rng) => (.panic w, k, net, rng)
      | (.blocked, k, rng) => (.blocked, k, net, rng)
    | .err _ => (.panic "model: newConnectionFor has no error outcome", k, net, rng)
    | .panic w => (.panic w, k, net, rng)
  | (.ioErr, k, net) => (.ioErr, k, net, rng)
  | (.panic w, k, net) => (.panic w, k, net, rng)
  | (.blocked, k, net) => (.blocked, k, net, rng)

/-- src/routing.rs:189-192 `InternalQuicSocket::set_log_traffic`. -/
def setLogTraffic (k : Sock) (flag : Bool) : Sock := { k with logTraffic := flag }

/-- src/routing.rs:194-197 `drop_connection`. -/
def dropConnection (k : Sock) (cid : U160) : Sock := { k with streams := tableRemove k.streams cid }

end Sock

/-! ### interface.rs

`QuicSocket` is an `Arc` of the internal socket; `QuicStream` is that and a connection id. -/

/-- src/interface.rs:11-15 (the shared socket pointer is implicit). -/
structure QuicStream where
  connectionId : U160
deriving DecidableEq, Repr

/-- src/interface.rs:17-22 `Drop for QuicStream`. -/
def QuicStream.drop (k : Sock) (s : QuicStream) : Sock := k.dropConnection s.connectionId

/-- src/interface.rs:32-41 `QuicSocket::connect`. -/
def QuicSocket.connect (k : Sock) : Io QuicStream :=
  match k.connect with
  | .ok connectionId => .ok { connectionId }
  | .ioErr => .ioErr
  | .panic w => .panic w
  | .blocked => .blocked

/-- src/interface.rs:42-48 `QuicSocket::accept`. -/
def QuicSocket.accept (P : Prims) (k : Sock) (net : List NetEvent) (rng : List U64) :
    Io QuicStream × Sock × List NetEvent × List U64 :=
  match k.accept P net rng with
  | (.ok connectionId, r) => (.ok { connectionId }, r)
  | (.ioErr, r) => (.ioErr, r)
  | (.panic w, r) => (.panic w, r)
  | (.blocked, r) => (.blocked, r)

/-- src/interface.rs:49 `QuicSocket::set_log_traffic` has an empty body. -/
def QuicSocket.setLogTraffic (k : Sock) (_flag : Bool) : Sock := k

end QuicSea
