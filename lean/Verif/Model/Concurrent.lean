import Verif.Model.Routing
/-
Interleaved execution of the calls on one `InternalQuicSocket` (src/routing.rs) by any number of threads, at the granularity
of lock operations and of accesses to the connection table.

A thread is at a program counter (`Pc`). `wants` is the lock it is about to acquire, `held` are the locks it holds. A guard is
released together with the last action done under it, unless a separate program counter is given. The lock state is not
stored: a lock is held by the threads whose program counter says so.

Where the code as written could not be run by several threads (`InternalQuicSocket` contains `mpsc::Receiver`s and is not
`Sync`, so an `Arc` of it cannot be sent to another thread), this model allows more than the code does. `set_log_traffic` takes
`&mut self` and so cannot run while others hold a reference; the model lets it run at any time. Allocation failure is
not modelled, and standard output and standard error can be written; `Verif.Model.Output` has the executions where they cannot.
-/
namespace QuicSea

/-- The locks of src/routing.rs:18-33: `socket`, `streams`, `log_traffic`, and each connection's `connection`. -/
inductive Lock where
  | socket
  | streams
  | log
  | conn (key : U160)
deriving DecidableEq, Repr

/-- How a lock is held: `lock()` and `write()`, or `read()` (for instance src/routing.rs:61, 175, 184). A `Mutex` is always held for writing. -/
inductive Mode where
  | read
  | write
deriving DecidableEq, Repr

/-- Where a thread is in the functions of src/routing.rs:60-197; the constructors cite the lines. -/
inductive Pc where
  /-- in no call -/
  | idle
  /-- panicked -/
  | dead
  /-- src/routing.rs:61, about to lock the socket -/
  | aLock
  /-- 64, in `recv_from`, holding the socket -/
  | aRecv
  /-- 67, about to lock the log flag, holding the socket -/
  | aLog (d : Datagram)
  /-- 67, reading the log flag, holding it and the socket -/
  | aFlag (d : Datagram)
  /-- 68-71, parsing and printing the header if `log`, holding the socket -/
  | aPrint (d : Datagram) (log : Bool)
  /-- 78-102, parsing the header and choosing by packet type -/
  | aParse (d : Datagram)
  /-- 91, about to lock the table -/
  | aCheckLock (d : Datagram) (dcid : U160)
  /-- 91, looking for the id, holding the table for reading -/
  | aCheck (d : Datagram) (dcid : U160)
  /-- 107 and 112-120, parsing the header again -/
  | aRoute (d : Datagram)
  /-- 121, about to lock the table -/
  | aSendLock (d : Datagram) (cid : U160)
  /-- 121-127, looking the id up and sending, holding the table for reading -/
  | aSend (d : Datagram) (cid : U160)
  /-- 107, `unwrap` of an error -/
  | aUnwrap (d : Datagram)
  /-- 159-169, creating the connection -/
  | aNew (d : Datagram)
  /-- 172-173, drawing a random id -/
  | aRandom (s : StreamState)
  /-- 175, about to lock the table -/
  | aRegLock (s : StreamState) (key : U160)
  /-- 176, looking for the id, holding the table for writing -/
  | aContains (s : StreamState) (key : U160)
  /-- 177, about to lock the new connection, holding the table for writing -/
  | aScidLock (s : StreamState) (key : U160)
  /-- 177, setting the source id, holding the connection and the table for writing -/
  | aSetScid (s : StreamState) (key : U160)
  /-- 178, inserting, holding the table for writing -/
  | aInsert (s : StreamState) (key : U160)
  /-- 179-180, leaving the block, holding the table for writing -/
  | aUnlock (key : U160)
  /-- 184, about to lock the table -/
  | aGetLock (key : U160)
  /-- 184, looking the id up, holding the table for reading -/
  | aGet (key : U160)
  /-- 185 -/
  | aTodo (key : U160)
  /-- 130-135, parsing the header -/
  | pParse (d : Datagram)
  /-- 137, about to lock the table -/
  | pLock (d : Datagram) (cid : U160)
  /-- 138-140, looking the id up, holding the table for reading -/
  | pGet (d : Datagram) (cid : U160)
  /-- 141, about to lock the connection, holding the table for reading -/
  | pConnLock (d : Datagram) (cid : U160)
  /-- 142, decoding, holding the connection and the table for reading -/
  | pDecode (d : Datagram) (cid : U160)
  /-- 144, about to lock the log flag -/
  | pLogLock (ps : List Packet)
  /-- 144, reading the log flag, holding it -/
  | pFlag (ps : List Packet)
  /-- 145, printing -/
  | pPrint (ps : List Packet) (log : Bool)
  /-- 196, about to lock the table -/
  | dLock (cid : U160)
  /-- 196, removing, holding the table for writing -/
  | dRemove (cid : U160)
  /-- 190, about to lock the log flag -/
  | sLock (flag : Bool)
  /-- 191, setting the flag, holding it for writing -/
  | sSet (flag : Bool)

namespace Pc
/-- The lock a thread is about to acquire, how, and where it is then (the `lock()`, `read()` and `write()` calls of src/routing.rs:53-197). -/
def wants : Pc → Option (Lock × Mode × Pc)
  | aLock => some (.socket, .write, aRecv)
  | aLog d => some (.log, .read, aFlag d)
  | aCheckLock d dcid => some (.streams, .read, aCheck d dcid)
  | aSendLock d cid => some (.streams, .read, aSend d cid)
  | aRegLock s key => some (.streams, .write, aContains s key)
  | aScidLock s key => some (.conn key, .write, aSetScid s key)
  | aGetLock key => some (.streams, .read, aGet key)
  | pLock d cid => some (.streams, .read, pGet d cid)
  | pConnLock d cid => some (.conn cid, .read, pDecode d cid)
  | pLogLock ps => some (.log, .read, pFlag ps)
  | dLock cid => some (.streams, .write, dRemove cid)
  | sLock flag => some (.log, .write, sSet flag)
  | _ => none

/-- The locks a thread holds, and how: the guards alive at that point of src/routing.rs:60-197. -/
def held : Pc → List (Lock × Mode)
  | aRecv => [(.socket, .write)]
  | aLog _ => [(.socket, .write)]
  | aFlag _ => [(.socket, .write), (.log, .read)]
  | aPrint _ _ => [(.socket, .write)]
  | aCheck _ _ => [(.streams, .read)]
  | aSend _ _ => [(.streams, .read)]
  | aContains _ _ => [(.streams, .write)]
  | aScidLock _ _ => [(.streams, .write)]
  | aSetScid _ key => [(.streams, .write), (.conn key, .write)]
  | aInsert _ _ => [(.streams, .write)]
  | aUnlock _ => [(.streams, .write)]
  | aGet _ => [(.streams, .read)]
  | pGet _ _ => [(.streams, .read)]
  | pConnLock _ _ => [(.streams, .read)]
  | pDecode _ cid => [(.streams, .read), (.conn cid, .read)]
  | pFlag _ => [(.log, .read)]
  | dRemove _ => [(.streams, .write)]
  | sSet _ => [(.log, .write)]
  | _ => []
end Pc

/-- What an action does, as seen from outside: src/routing.rs:64, 123, 91, 178, 196, and panics. -/
inductive Label where
  | tau
  /-- a datagram was taken from the network -/
  | received (d : Datagram)
  /-- a datagram was appended to the queue of a connection -/
  | sent (key : U160) (d : Datagram)
  /-- a datagram was found to open a new connection -/
  | opened (d : Datagram)
  /-- a connection was added to the table -/
  | registered (key : U160) (s : StreamState)
  /-- `drop_connection` was done -/
  | removed (key : U160)
  /-- the thread panicked -/
  | panicked

/-- One action other than acquiring a lock, of a thread at the first program counter (src/routing.rs:60-197; the constructors cite the lines). -/
inductive Act (P : Prims) (bp : Profile) : Pc → Sock → Label → Pc → Sock → Prop where
  /-- a thread may start any call at any time -/
  | callAccept (k) : Act P bp .idle k .tau .aLock k
  | callPackets (k) (d) : Act P bp .idle k .tau (.pParse d) k
  | callDrop (k) (cid) : Act P bp .idle k .tau (.dLock cid) k
  | callSetLog (k) (flag) : Act P bp .idle k .tau (.sLock flag) k
  /-- src/routing.rs:64-66; bytes beyond the buffer are cut off -/
  | recv (k) (raw : Bytes) (addr : Nat) : Act P bp .aRecv k (.received ⟨raw.take Sock.RECV_BUFFER_LEN, addr⟩)
      (.aLog ⟨raw.take Sock.RECV_BUFFER_LEN, addr⟩) k
  /-- 64, `?` -/
  | recvError (k) : Act P bp .aRecv k .tau .idle k
  /-- 67; the guard is dropped before the block -/
  | flag (k) (d) : Act P bp (.aFlag d) k .tau (.aPrint d k.logTraffic) k
  /-- 68-72 -/
  | print (k) (d) (h : (nextHeaderFromStream (makeResultStream d.data)).1.isPanic = false) :
      Act P bp (.aPrint d true) k .tau (.aParse d)
        { k with printed := k.printed ++ [.header (nextHeaderFromStream (makeResultStream d.data)).1] }
  | noPrint (k) (d) : Act P bp (.aPrint d false) k .tau (.aParse d) k
  /-- 79-91 -/
  | parseInitial (k) (d) (h) (he : (nextHeaderFromStream (makeResultStream d.data)).1 = .ok h) (ht : h.getPacketType = .ok .initial) :
      Act P bp (.aParse d) k .tau (.aCheckLock d h.getDestinationId) k
  /-- 94 -/
  | parseOther (k) (d) (h) (t) (he : (nextHeaderFromStream (makeResultStream d.data)).1 = .ok h) (ht : h.getPacketType = .ok t)
      (hi : t ≠ .initial) : Act P bp (.aParse d) k .tau (.aRoute d) k
  /-- 97-101 -/
  | parseError (k) (d) (e) (he : (nextHeaderFromStream (makeResultStream d.data)).1 = .err e) :
      Act P bp (.aParse d) k .tau (.aRoute d) k
  /-- 91 and 104-105 -/
  | checkNew (k) (d) (dcid) (h : k.streams dcid = none) : Act P bp (.aCheck d dcid) k .tau (.aNew d) k
  /-- 91 and 107 -/
  | checkKnown (k) (d) (dcid) (x) (h : k.streams dcid = some x) : Act P bp (.aCheck d dcid) k .tau (.aRoute d) k
  /-- 112-120 -/
  | route (k) (d) (h) (he : (nextHeaderFromStream (makeResultStream d.data)).1 = .ok h) :
      Act P bp (.aRoute d) k .tau (.aSendLock d h.getDestinationId) k
  | routeError (k) (d) (e) (he : (nextHeaderFromStream (makeResultStream d.data)).1 = .err e) :
      Act P bp (.aRoute d) k .tau (.aUnwrap d) k
  /-- 122-125, then the loop of 75 -/
  | send (k) (d) (cid) (x) (h : k.streams cid = some x) : Act P bp (.aSend d cid) k (.sent cid d) .aLock
      { k with streams := tableInsert k.streams cid { x with queue := x.queue ++ [d] } }
  /-- 126 -/
  | sendMissing (k) (d) (cid) (h : k.streams cid = none) : Act P bp (.aSend d cid) k .tau (.aUnwrap d) k
  /-- 159-169 -/
  | new (k) (d) (c) (h : Sock.newConnectionFor P d = .ok c) :
      Act P bp (.aNew d) k (.opened d) (.aRandom (.fromConnection c)) k
  /-- 172-173, any random number -/
  | random (k) (s) (srcId : U64) : Act P bp (.aRandom s) k .tau (.aRegLock s (.ofU64 srcId)) k
  /-- 176 -/
  | fresh (k) (s) (key) (h : k.streams key = none) : Act P bp (.aContains s key) k .tau (.aScidLock s key) k
  | taken (k) (s) (key) (x) (h : k.streams key = some x) : Act P bp (.aContains s key) k .tau (.aRandom s) k
  /-- 177 -/
  | setScid (k) (s : StreamState) (key) :
      Act P bp (.aSetScid s key) k .tau (.aInsert { s with connection := s.connection.setScid key 8 } key) k
  /-- 178 -/
  | insert (k) (s) (key) : Act P bp (.aInsert s key) k (.registered key s) (.aUnlock key)
      { k with streams := tableInsert k.streams key s }
  /-- 179-183 -/
  | unlock (k) (key) : Act P bp (.aUnlock key) k .tau (.aGetLock key) k
  /-- 184 -/
  | get (k) (key) (x) (h : k.streams key = some x) : Act P bp (.aGet key) k .tau (.aTodo key) k
  /-- 132-135 -/
  | packetsParse (k) (d) (h) (he : (nextHeaderFromStream (makeResultStream d.data)).1 = .ok h) :
      Act P bp (.pParse d) k .tau (.pLock d h.getDestinationId) k
  | packetsParseError (k) (d) (e) (he : (nextHeaderFromStream (makeResultStream d.data)).1 = .err e) :
      Act P bp (.pParse d) k .tau .idle k
  /-- 138-140 -/
  | packetsGet (k) (d) (cid) (x) (h : k.streams cid = some x) : Act P bp (.pGet d cid) k .tau (.pConnLock d cid) k
  | packetsMissing (k) (d) (cid) (h : k.streams cid = none) : Act P bp (.pGet d cid) k .tau .idle k
  /-- 142-143 -/
  | decode (k) (d) (cid) (x) (ps) (h : k.streams cid = some x)
      (hd : (decodePackets bp x.connection (makeResultStream d.data)).1 = .ok ps) : Act P bp (.pDecode d cid) k .tau (.pLogLock ps) k
  | decodeError (k) (d) (cid) (x) (e) (h : k.streams cid = some x)
      (hd : (decodePackets bp x.connection (makeResultStream d.data)).1 = .err e) : Act P bp (.pDecode d cid) k .tau .idle k
  /-- 144-147 -/
  | packetsFlag (k) (ps) : Act P bp (.pFlag ps) k .tau (.pPrint ps k.logTraffic) k
  | packetsPrint (k) (ps) : Act P bp (.pPrint ps true) k .tau .idle { k with printed := k.printed ++ [.packets ps] }
  | packetsNoPrint (k) (ps) : Act P bp (.pPrint ps false) k .tau .idle k
  /-- 196 -/
  | remove (k) (cid) : Act P bp (.dRemove cid) k (.removed cid) .idle { k with streams := tableRemove k.streams cid }
  /-- 190-191 -/
  | setLog (k) (flag) : Act P bp (.sSet flag) k .tau .idle { k with logTraffic := flag }

/-- The thread at this program counter panics (src/routing.rs:60-197). -/
inductive Panics (P : Prims) (bp : Profile) : Pc → Sock → Prop where
  /-- src/routing.rs:69 -/
  | print (k) (d) (w) (h : (nextHeaderFromStream (makeResultStream d.data)).1 = .panic w) : Panics P bp (.aPrint d true) k
  /-- 79 -/
  | parse (k) (d) (w) (h : (nextHeaderFromStream (makeResultStream d.data)).1 = .panic w) : Panics P bp (.aParse d) k
  /-- 80-83 -/
  | packetType (k) (d) (h) (he : (nextHeaderFromStream (makeResultStream d.data)).1 = .ok h)
      (ht : h.getPacketType.isOk = false) : Panics P bp (.aParse d) k
  /-- 116 -/
  | route (k) (d) (w) (h : (nextHeaderFromStream (makeResultStream d.data)).1 = .panic w) : Panics P bp (.aRoute d) k
  /-- 107 -/
  | unwrap (k) (d) : Panics P bp (.aUnwrap d) k
  /-- 161-168 -/
  | new (k) (d) (h : (Sock.newConnectionFor P d).isOk = false) : Panics P bp (.aNew d) k
  /-- 184 -/
  | get (k) (key) (h : k.streams key = none) : Panics P bp (.aGet key) k
  /-- 185 -/
  | todo (k) (key) : Panics P bp (.aTodo key) k
  /-- 135 -/
  | packetsParse (k) (d) (w) (h : (nextHeaderFromStream (makeResultStream d.data)).1 = .panic w) : Panics P bp (.pParse d) k
  /-- 142 -/
  | decode (k) (d) (cid) (x) (w) (h : k.streams cid = some x)
      (hd : (decodePackets bp x.connection (makeResultStream d.data)).1 = .panic w) : Panics P bp (.pDecode d cid) k

/-- The socket (src/routing.rs:28-33), the poison flags of its locks, and all threads. -/
structure Sys where
  sock : Sock
  poisoned : Lock → Bool
  pc : Nat → Pc

namespace Sys
/-- Move one thread (no code of its own; used by `Step`, src/routing.rs:60-197). -/
def goto (s : Sys) (t : Nat) (p : Pc) : Sys := { s with pc := fun t' => if t' = t then p else s.pc t' }

/-- May the lock (src/routing.rs:18-33) be given out in this mode? (`std::sync`: not reentrant, and a writer excludes everybody.) The real lock may
also make readers wait for waiting writers; `Verif.Props.Concurrent` takes care of that in the definition of a deadlock. -/
def Free (s : Sys) (l : Lock) (m : Mode) : Prop := ∀ t m', (l, m') ∈ (s.pc t).held → m = .read ∧ m' = .read

/-- A thread panics (any `Panics` of src/routing.rs:60-197): its guards are dropped, and a lock it held for writing is poisoned (`std::sync::Mutex`, `RwLock`). -/
def kill (s : Sys) (t : Nat) : Sys :=
  { (s.goto t .dead) with poisoned := fun l => s.poisoned l || decide ((l, Mode.write) ∈ (s.pc t).held) }

/-- One step of thread `t` in src/routing.rs:60-197. -/
inductive Step (P : Prims) (bp : Profile) : Sys → Nat → Label → Sys → Prop where
  | act (s : Sys) (t l p k) (h : Act P bp (s.pc t) s.sock l p k) : Step P bp s t l { (s.goto t p) with sock := k }
  /-- a lock that is free and not poisoned is acquired -/
  | acquire (s : Sys) (t l m p) (hw : (s.pc t).wants = some (l, m, p)) (hf : s.Free l m) (hp : s.poisoned l = false) :
      Step P bp s t .tau (s.goto t p)
  /-- `unwrap` of a `PoisonError` -/
  | poisoned (s : Sys) (t l m p) (hw : (s.pc t).wants = some (l, m, p)) (hf : s.Free l m) (hp : s.poisoned l = true) :
      Step P bp s t .panicked (s.kill t)
  | panic (s : Sys) (t) (h : Panics P bp (s.pc t) s.sock) : Step P bp s t .panicked (s.kill t)

/-- A new socket (src/routing.rs:47-59), before any call. -/
def init : Sys := { sock := Sock.bind, poisoned := fun _ => false, pc := fun _ => .idle }

/-- A run of the calls of src/routing.rs:60-197, with what happened in it, oldest first. -/
inductive Run (P : Prims) (bp : Profile) : Sys → List (Nat × Label) → Sys → Prop where
  | nil (s) : Run P bp s [] s
  | snoc {s tr s' t l s''} : Run P bp s tr s' → Step P bp s' t l s'' → Run P bp s (tr ++ [(t, l)]) s''
end Sys

end QuicSea
