import Verif.Model.SockHistory
import Verif.Model.Concurrent
import Verif.Props.Routing
import Verif.Props.Serial
import Verif.Props.Resources
/-
C110: the address a datagram comes from has no influence on what is done with it (RFC 9000 section 5.1).
-/
namespace QuicSea
open Spec

/-! ## The same thing with other addresses -/

/-- The same datagram from another address. -/
def Datagram.from' (f : Nat → Nat) (d : Datagram) : Datagram := { d with addr := f d.addr }
/-- The same network event from another address. -/
def NetEvent.from' (f : Nat → Nat) : NetEvent → NetEvent
  | .datagram raw addr => .datagram raw (f addr)
  | .ioError => .ioError
/-- The same entry with other addresses in its queue. -/
def StreamState.from' (f : Nat → Nat) (s : StreamState) : StreamState := { s with queue := s.queue.map (·.from' f) }
/-- The same socket with other addresses in its queues. -/
def Sock.from' (f : Nat → Nat) (k : Sock) : Sock := { k with streams := fun i => (k.streams i).map (·.from' f) }
/-- The same call with datagrams from other addresses. -/
def SockOp.from' (f : Nat → Nat) : SockOp → SockOp
  | .accept net rng => .accept (net.map (·.from' f)) rng
  | .route d => .route (d.from' f)
  | .packets d => .packets (d.from' f)
  | .drop cid => .drop cid
  | .setLog flag => .setLog flag
/-- The same result; it has addresses only in the network events that are still to come. -/
def SockRes.from' (f : Nat → Nat) : SockRes → SockRes
  | .accepted r net rng => .accepted r (net.map (·.from' f)) rng
  | .routed r => .routed r
  | .decoded r => .decoded r
  | .unit => .unit
/-- The same datagram as the outcome of a call. -/
def Io.from' (f : Nat → Nat) : Io Datagram → Io Datagram
  | .ok d => .ok (d.from' f)
  | .ioErr => .ioErr
  | .panic w => .panic w
  | .blocked => .blocked

/-! ## One caller -/

namespace Sock
variable (f : Nat → Nat)

theorem from'_insert (t : U160 → Option StreamState) (i : U160) (x : StreamState) :
    (fun j => (tableInsert t i x j).map (·.from' f)) = tableInsert (fun j => (t j).map (·.from' f)) i (x.from' f) := by
  funext j
  unfold tableInsert
  split <;> rfl
theorem from'_remove (t : U160 → Option StreamState) (i : U160) :
    (fun j => (tableRemove t i j).map (·.from' f)) = tableRemove (fun j => (t j).map (·.from' f)) i := by
  funext j
  unfold tableRemove
  split <;> rfl
theorem from'_isNone (k : Sock) (i : U160) : ((k.from' f).streams i).isNone = (k.streams i).isNone := by
  show ((k.streams i).map _).isNone = _
  cases k.streams i <;> rfl
theorem recv_from' (k : Sock) (e : NetEvent) :
    (k.from' f).recvDatagram (e.from' f) = ((k.recvDatagram e).1.from' f, (k.recvDatagram e).2.from' f) := by
  cases e with
  | ioError => rfl
  | datagram raw addr =>
    unfold recvDatagram NetEvent.from'
    show (if k.logTraffic = true then _ else _) = _
    by_cases hl : k.logTraffic = true
    · simp only [hl, if_true]
      have hk : (k.from' f).logTraffic = true := hl
      rw [hk]
      cases (nextHeaderFromStream (makeResultStream (raw.take RECV_BUFFER_LEN))).1 <;> rfl
    · simp only [hl]
      rfl
theorem isNew_from' (k : Sock) (d : Datagram) : (k.from' f).isNewInitial (d.from' f) = k.isNewInitial d := by
  unfold isNewInitial
  show (match (nextHeaderFromStream (makeResultStream d.data)).1 with | .ok x => _ | .err _ => _ | .panic w => _) = _
  cases (nextHeaderFromStream (makeResultStream d.data)).1 with
  | ok x => simp only [from'_isNone]
  | err e => rfl
  | panic w => rfl
theorem route_from' (k : Sock) (d : Datagram) :
    (k.from' f).routeDatagram (d.from' f) = ((k.routeDatagram d).1, (k.routeDatagram d).2.from' f) := by
  unfold routeDatagram
  show (match (nextHeaderFromStream (makeResultStream d.data)).1 with | .ok x => _ | .err e => _ | .panic w => _) = _
  cases (nextHeaderFromStream (makeResultStream d.data)).1 with
  | ok x =>
    show (match (k.streams x.getDestinationId).map (·.from' f) with | some x => _ | none => _) = _
    cases hx : k.streams x.getDestinationId with
    | none => simp only [Option.map_none, hx]
    | some y =>
      simp only [Option.map_some, hx]
      refine Prod.ext rfl ?_
      show Sock.mk _ _ _ = Sock.mk _ _ _
      rw [from'_insert]
      simp [StreamState.from', Sock.from']
  | err e => rfl
  | panic w => rfl
theorem recvNew_from' (net : List NetEvent) : ∀ k : Sock,
    (k.from' f).recvNewInitialDatagram (net.map (·.from' f)) =
      ((k.recvNewInitialDatagram net).1.from' f, (k.recvNewInitialDatagram net).2.1.from' f, (k.recvNewInitialDatagram net).2.2.map (·.from' f)) := by
  induction net with
  | nil => intro k; rfl
  | cons e net ih =>
    intro k
    simp only [List.map_cons, recvNewInitialDatagram, recv_from']
    rcases h1 : k.recvDatagram e with ⟨r, k1⟩
    cases r with
    | ok d =>
      simp only [Io.from', isNew_from']
      cases k1.isNewInitial d with
      | ok b =>
        cases b with
        | true => rfl
        | false =>
          simp only [route_from']
          rcases k1.routeDatagram d with ⟨r2, k2⟩
          cases r2 with
          | ok u => exact ih k2
          | err e => rfl
          | panic w => rfl
      | err e => rfl
      | panic w => rfl
    | ioErr => rfl
    | panic w => rfl
    | blocked => rfl
theorem new_from' (P : Prims) (d : Datagram) : newConnectionFor P (d.from' f) = newConnectionFor P d := rfl
theorem register_from' (s : StreamState) (rng : List U64) : ∀ k : Sock,
    (k.from' f).register (s.from' f) rng = ((k.register s rng).1, (k.register s rng).2.1.from' f, (k.register s rng).2.2) := by
  induction rng with
  | nil => intro k; rfl
  | cons x rng ih =>
    intro k
    simp only [register, from'_isNone]
    split
    · refine Prod.ext rfl (Prod.ext ?_ rfl)
      show Sock.mk _ _ _ = Sock.mk _ _ _
      rw [from'_insert]
      rfl
    · exact ih k
theorem accept_from' (P : Prims) (k : Sock) (net : List NetEvent) (rng : List U64) :
    (k.from' f).accept P (net.map (·.from' f)) rng =
      ((k.accept P net rng).1, (k.accept P net rng).2.1.from' f, (k.accept P net rng).2.2.1.map (·.from' f), (k.accept P net rng).2.2.2) := by
  unfold accept
  rw [recvNew_from']
  rcases k.recvNewInitialDatagram net with ⟨r, k1, net1⟩
  cases r with
  | ok d =>
    simp only [Io.from', new_from']
    cases newConnectionFor P d with
    | ok c =>
      have hs : StreamState.fromConnection c = (StreamState.fromConnection c).from' f := rfl
      simp only
      rw [hs, register_from', ← hs]
      rcases k1.register (.fromConnection c) rng with ⟨r2, k2, rng2⟩
      cases r2 with
      | ok i =>
        show (match (k2.streams i).map (·.from' f) with | some _ => _ | none => _) = _
        cases hx : k2.streams i <;> simp [hx]
      | ioErr => rfl
      | panic w => rfl
      | blocked => rfl
    | err e => rfl
    | panic w => rfl
  | ioErr => rfl
  | panic w => rfl
  | blocked => rfl
theorem packets_from' (bp : Profile) (k : Sock) (d : Datagram) :
    (k.from' f).packetsFromDatagram bp (d.from' f) = ((k.packetsFromDatagram bp d).1, (k.packetsFromDatagram bp d).2.from' f) := by
  have hd : (d.from' f).data = d.data := rfl
  unfold packetsFromDatagram
  simp only [hd]
  cases (nextHeaderFromStream (makeResultStream d.data)).1 with
  | ok x =>
    have hk : (k.from' f).streams x.getDestinationId = (k.streams x.getDestinationId).map (·.from' f) := rfl
    simp only [hk]
    cases k.streams x.getDestinationId with
    | none => rfl
    | some y =>
      have hy : (y.from' f).connection = y.connection := rfl
      simp only [Option.map_some, hy]
      cases (decodePackets bp y.connection (makeResultStream d.data)).1 with
      | ok rv =>
        by_cases hl : k.logTraffic = true
        · simp only [hl, show (k.from' f).logTraffic = true from hl, if_true]; rfl
        · simp only [hl, show ¬ (k.from' f).logTraffic = true from hl]; rfl
      | err e => rfl
      | panic w => rfl
  | err e => rfl
  | panic w => rfl
theorem step_from' (P : Prims) (bp : Profile) (k : Sock) (op : SockOp) :
    (k.from' f).step P bp (op.from' f) = ((k.step P bp op).1.from' f, (k.step P bp op).2.from' f) := by
  cases op with
  | accept net rng => simp only [SockOp.from', step, accept_from']; rfl
  | route d => simp only [SockOp.from', step, route_from']; rfl
  | packets d => simp only [SockOp.from', step, packets_from']; rfl
  | drop cid =>
    refine Prod.ext rfl ?_
    show Sock.mk _ _ _ = Sock.mk (fun j => (tableRemove k.streams cid j).map (·.from' f)) _ _
    rw [from'_remove]
    rfl
  | setLog flag => rfl
end Sock

/-- C110. With the addresses of all datagrams replaced in any way, every history of calls has the same results, and leaves the same table up to that
replacement: the address is carried along and never looked at. -/
theorem C110_history (f : Nat → Nat) (P : Prims) (bp : Profile) (ops : List SockOp) : ∀ k : Sock,
    Sock.run P bp (k.from' f) (ops.map (·.from' f)) = ((Sock.run P bp k ops).1.map (·.from' f), (Sock.run P bp k ops).2.from' f) := by
  induction ops with
  | nil => intro k; rfl
  | cons op ops ih =>
    intro k
    simp only [List.map_cons, Sock.run, Sock.step_from', ih]

/-- What is left of an entry without the addresses: the connection and the bytes of the queued datagrams, in order. -/
def StreamState.contents (s : StreamState) : Connection × List Bytes := (s.connection, s.queue.map (·.data))

theorem StreamState.contents_from' (f : Nat → Nat) (s : StreamState) : (s.from' f).contents = s.contents := by
  simp [contents, from', Datagram.from', Function.comp_def]

/-- C110. Two histories of calls with the same bytes in the same order, whatever the addresses (one client that moves, or two that send from two places):
the same results, the same ids in the table, under each the same connection and the same bytes in the queue, and the same lines printed. -/
theorem C110_same_bytes (P : Prims) (bp : Profile) (ops ops' : List SockOp)
    (h : ops.map (·.from' (fun _ => 0)) = ops'.map (·.from' (fun _ => 0))) :
    (Sock.run P bp Sock.bind ops).1.map (·.from' (fun _ => 0)) = (Sock.run P bp Sock.bind ops').1.map (·.from' (fun _ => 0)) ∧
    (∀ i, ((Sock.run P bp Sock.bind ops).2.streams i).map (·.contents) = ((Sock.run P bp Sock.bind ops').2.streams i).map (·.contents)) ∧
    (Sock.run P bp Sock.bind ops).2.printed = (Sock.run P bp Sock.bind ops').2.printed := by
  have h1 := C110_history (fun _ => 0) P bp ops Sock.bind
  rw [h, C110_history (fun _ => 0) P bp ops' Sock.bind] at h1
  have hs := congrArg Prod.snd h1
  refine ⟨(congrArg Prod.fst h1).symm, fun i => ?_, (congrArg Sock.printed hs).symm⟩
  have hi : ((Sock.run P bp Sock.bind ops').2.streams i).map (·.from' (fun _ => 0)) = ((Sock.run P bp Sock.bind ops).2.streams i).map (·.from' (fun _ => 0)) :=
    congrFun (congrArg Sock.streams hs) i
  have hc := congrArg (Option.map StreamState.contents) hi
  simp only [Option.map_map, Function.comp_def, StreamState.contents_from'] at hc
  exact hc.symm

/-- A client that opens a connection from address 1 and then sends from 1 and from 2, and one that stays at 1. -/
def exMoves : List SockOp := [.accept [.datagram exInitial.data 1] [5], .route exShort, .route { exShort with addr := 2 }]
def exStays : List SockOp := [.accept [.datagram exInitial.data 1] [5], .route exShort, .route exShort]
example : exMoves.map (·.from' (fun _ => 0)) = exStays.map (·.from' (fun _ => 0)) := rfl
/-- Both datagrams are in the queue of the connection, each with its own address. -/
example : ((Sock.run toy .debug Sock.bind exMoves).2.streams (.ofU64 5)).map (fun s => s.queue.map (·.addr)) = some [1, 2] ∧
    ((Sock.run toy .debug Sock.bind exMoves).2.streams (.ofU64 5)).map (fun s => s.queue.map (·.data)) = some [exShort.data, exShort.data] ∧
    ((Sock.run toy .debug Sock.bind exStays).2.streams (.ofU64 5)).map (fun s => s.queue.map (·.addr)) = some [1, 1] := by decide +kernel

/-! ## Many threads -/

/-- The same place in the code, with datagrams from other addresses. -/
def Pc.from' (f : Nat → Nat) : Pc → Pc
  | aLog d => aLog (d.from' f)
  | aFlag d => aFlag (d.from' f)
  | aPrint d log => aPrint (d.from' f) log
  | aParse d => aParse (d.from' f)
  | aCheckLock d dcid => aCheckLock (d.from' f) dcid
  | aCheck d dcid => aCheck (d.from' f) dcid
  | aRoute d => aRoute (d.from' f)
  | aSendLock d cid => aSendLock (d.from' f) cid
  | aSend d cid => aSend (d.from' f) cid
  | aUnwrap d => aUnwrap (d.from' f)
  | aNew d => aNew (d.from' f)
  | aRandom s => aRandom (s.from' f)
  | aRegLock s key => aRegLock (s.from' f) key
  | aContains s key => aContains (s.from' f) key
  | aScidLock s key => aScidLock (s.from' f) key
  | aSetScid s key => aSetScid (s.from' f) key
  | aInsert s key => aInsert (s.from' f) key
  | pParse d => pParse (d.from' f)
  | pLock d cid => pLock (d.from' f) cid
  | pGet d cid => pGet (d.from' f) cid
  | pConnLock d cid => pConnLock (d.from' f) cid
  | pDecode d cid => pDecode (d.from' f) cid
  | pc => pc
/-- The same event, with datagrams from other addresses. -/
def Label.from' (f : Nat → Nat) : Label → Label
  | received d => received (d.from' f)
  | sent key d => sent key (d.from' f)
  | opened d => opened (d.from' f)
  | registered key s => registered key (s.from' f)
  | l => l
/-- The same system, with datagrams from other addresses. -/
def Sys.from' (f : Nat → Nat) (s : Sys) : Sys := { s with sock := s.sock.from' f, pc := fun t => (s.pc t).from' f }

namespace Sys
variable (f : Nat → Nat)
theorem held_from' (p : Pc) : (p.from' f).held = p.held := by cases p <;> rfl
theorem wants_from' (p : Pc) (l m q) (h : p.wants = some (l, m, q)) : (p.from' f).wants = some (l, m, q.from' f) := by
  cases p <;> first | (cases h; rfl) | cases h
theorem streams_none {k : Sock} {i : U160} (h : k.streams i = none) : (k.from' f).streams i = none := by
  show (k.streams i).map _ = none
  rw [h]; rfl
theorem streams_some {k : Sock} {i : U160} {x : StreamState} (h : k.streams i = some x) : (k.from' f).streams i = some (x.from' f) := by
  show (k.streams i).map _ = _
  rw [h]; rfl
theorem act_from' {P : Prims} {bp : Profile} {p : Pc} {k : Sock} {l : Label} {p' : Pc} {k' : Sock} (h : Act P bp p k l p' k') :
    Act P bp (p.from' f) (k.from' f) (l.from' f) (p'.from' f) (k'.from' f) := by
  cases h with
  | callAccept _ => exact .callAccept _
  | callPackets _ d => exact .callPackets _ _
  | callDrop _ => exact .callDrop _ _
  | callSetLog _ => exact .callSetLog _ _
  | recv _ raw addr => exact .recv _ raw (f addr)
  | recvError _ => exact .recvError _
  | flag _ d => exact .flag _ _
  | print _ d h => exact .print _ (d.from' f) h
  | noPrint _ d => exact .noPrint _ _
  | parseInitial _ d h he ht => exact .parseInitial _ (d.from' f) h he ht
  | parseOther _ d h t he ht hi => exact .parseOther _ (d.from' f) h t he ht hi
  | parseError _ d e he => exact .parseError _ (d.from' f) e he
  | checkNew _ d dcid h => exact .checkNew _ _ _ (streams_none f h)
  | checkKnown _ d dcid x h => exact .checkKnown _ _ _ _ (streams_some f h)
  | route _ d h he => exact .route _ (d.from' f) h he
  | routeError _ d e he => exact .routeError _ (d.from' f) e he
  | send _ d cid x h =>
    have := Act.send (P := P) (bp := bp) (k.from' f) (d.from' f) cid (x.from' f) (streams_some f h)
    have e : Sock.from' f { k with streams := tableInsert k.streams cid { x with queue := x.queue ++ [d] } } =
        { (k.from' f) with streams := tableInsert (k.from' f).streams cid { (x.from' f) with queue := (x.from' f).queue ++ [d.from' f] } } := by
      show Sock.mk (fun j => (tableInsert k.streams cid { x with queue := x.queue ++ [d] } j).map (·.from' f)) _ _ = Sock.mk _ _ _
      rw [Sock.from'_insert]
      simp [StreamState.from', Sock.from']
    rw [e]
    exact this
  | sendMissing _ d cid h => exact .sendMissing _ _ _ (streams_none f h)
  | new _ d c h => exact .new _ (d.from' f) c h
  | random _ s x => exact .random _ _ x
  | fresh _ s key h => exact .fresh _ _ _ (streams_none f h)
  | taken _ s key x h => exact .taken _ _ _ _ (streams_some f h)
  | setScid _ s key => exact .setScid _ (s.from' f) key
  | insert _ s key =>
    have := Act.insert (P := P) (bp := bp) (k.from' f) (s.from' f) key
    have e : Sock.from' f { k with streams := tableInsert k.streams key s } = { (k.from' f) with streams := tableInsert (k.from' f).streams key (s.from' f) } := by
      show Sock.mk (fun j => (tableInsert k.streams key s j).map (·.from' f)) _ _ = Sock.mk _ _ _
      rw [Sock.from'_insert]
      rfl
    rw [e]
    exact this
  | unlock _ key => exact .unlock _ _
  | get _ key x h => exact .get _ _ _ (streams_some f h)
  | packetsParse _ d h he => exact .packetsParse _ (d.from' f) h he
  | packetsParseError _ d e he => exact .packetsParseError _ (d.from' f) e he
  | packetsGet _ d cid x h => exact .packetsGet _ _ _ _ (streams_some f h)
  | packetsMissing _ d cid h => exact .packetsMissing _ _ _ (streams_none f h)
  | decode _ d cid x ps h hd => exact .decode _ (d.from' f) cid (x.from' f) ps (streams_some f h) hd
  | decodeError _ d cid x e h hd => exact .decodeError _ (d.from' f) cid (x.from' f) e (streams_some f h) hd
  | packetsFlag _ ps => exact .packetsFlag _ _
  | packetsPrint _ ps => exact .packetsPrint _ _
  | packetsNoPrint _ ps => exact .packetsNoPrint _ _
  | remove _ cid =>
    have := Act.remove (P := P) (bp := bp) (k.from' f) cid
    have e : Sock.from' f { k with streams := tableRemove k.streams cid } = { (k.from' f) with streams := tableRemove (k.from' f).streams cid } := by
      show Sock.mk (fun j => (tableRemove k.streams cid j).map (·.from' f)) _ _ = Sock.mk _ _ _
      rw [Sock.from'_remove]
      rfl
    rw [e]
    exact this
  | setLog _ flag => exact .setLog _ _
theorem panics_from' {P : Prims} {bp : Profile} {p : Pc} {k : Sock} (h : Panics P bp p k) : Panics P bp (p.from' f) (k.from' f) := by
  cases h with
  | print _ d w h => exact .print _ (d.from' f) w h
  | parse _ d w h => exact .parse _ (d.from' f) w h
  | packetType _ d h he ht => exact .packetType _ (d.from' f) h he ht
  | route _ d w h => exact .route _ (d.from' f) w h
  | unwrap _ d => exact .unwrap _ _
  | new _ d h => exact .new _ (d.from' f) h
  | get _ key h => exact .get _ _ (streams_none f h)
  | todo _ key => exact .todo _ _
  | packetsParse _ d w h => exact .packetsParse _ (d.from' f) w h
  | decode _ d cid x w h hd => exact .decode _ (d.from' f) cid (x.from' f) w (streams_some f h) hd
theorem goto_from' (s : Sys) (t : Nat) (p : Pc) : (s.goto t p).from' f = (s.from' f).goto t (p.from' f) := by
  show Sys.mk _ _ _ = Sys.mk _ _ _
  congr 1
  funext t'
  show Pc.from' f (if t' = t then p else s.pc t') = if t' = t then p.from' f else (s.pc t').from' f
  split <;> rfl
theorem free_from' {s : Sys} {l : Lock} {m : Mode} (h : s.Free l m) : (s.from' f).Free l m :=
  fun t m' hm => h t m' (held_from' f (s.pc t) ▸ hm)
theorem kill_from' (s : Sys) (t : Nat) : (s.kill t).from' f = (s.from' f).kill t := by
  show Sys.mk _ _ _ = Sys.mk _ _ _
  have h1 := congrArg Sys.pc (goto_from' f s t .dead)
  have h2 : (fun l => s.poisoned l || decide ((l, Mode.write) ∈ (s.pc t).held)) =
      (fun l => (s.from' f).poisoned l || decide ((l, Mode.write) ∈ ((s.from' f).pc t).held)) := by
    funext l
    show _ = (s.poisoned l || decide ((l, Mode.write) ∈ ((s.pc t).from' f).held))
    rw [held_from']
  have h3 : ((s.kill t).from' f).poisoned = ((s.from' f).kill t).poisoned := h2
  congr 1
theorem step_from' {P : Prims} {bp : Profile} {s : Sys} {t : Nat} {l : Label} {s' : Sys} (h : Step P bp s t l s') :
    Step P bp (s.from' f) t (l.from' f) (s'.from' f) := by
  cases h with
  | act _ p k h =>
    have := Step.act (P := P) (bp := bp) (s.from' f) t (l.from' f) (p.from' f) (k.from' f) (act_from' f h)
    rw [← goto_from'] at this
    exact this
  | acquire l m p hw hf hp =>
    rw [goto_from']
    exact .acquire _ t l m _ (wants_from' f _ _ _ _ hw) (free_from' f hf) hp
  | poisoned l m p hw hf hp =>
    rw [kill_from']
    exact .poisoned _ t l m _ (wants_from' f _ _ _ _ hw) (free_from' f hf) hp
  | panic h =>
    rw [kill_from']
    exact .panic _ t (panics_from' f h)
end Sys

/-- C110. The same for any number of threads: with the addresses replaced in any way, the same schedule is possible, with the same events in the same
order, and it ends in the same state up to that replacement. -/
theorem C110_schedules (f : Nat → Nat) (P : Prims) (bp : Profile) {s : Sys} {tr : List (Nat × Label)} {s' : Sys} (h : Sys.Run P bp s tr s') :
    Sys.Run P bp (s.from' f) (tr.map fun e => (e.1, e.2.from' f)) (s'.from' f) := by
  induction h with
  | nil => exact .nil _
  | snoc h hs ih =>
    rw [List.map_append]
    exact .snoc ih (Sys.step_from' f hs)

/-- C110. From a new socket: whatever one network can bring about, it can bring about from any other addresses. -/
theorem C110_schedules_init (f : Nat → Nat) (P : Prims) (bp : Profile) {tr : List (Nat × Label)} {s : Sys} (h : Sys.Run P bp Sys.init tr s) :
    Sys.Run P bp Sys.init (tr.map fun e => (e.1, e.2.from' f)) (s.from' f) :=
  C110_schedules f P bp h

/-- A run of two threads (that of C88) with its datagrams from addresses 11 and 12 in place of 1 and 2. -/
example : ∃ tr s, Sys.Run toy .debug Sys.init tr s ∧ (1, Label.received ⟨(exCross 6).take Sock.RECV_BUFFER_LEN, 12⟩) ∈ tr := by
  obtain ⟨tr, s, -, h, hr, -⟩ := C88_drop_race toy_laws .debug 6 (exCross 5) (exCross 6) 1 2 _ _ (exCross_addressed 5) (exCross_addressed 6) (exCross_val 6)
  refine ⟨_, _, C110_schedules_init (· + 10) toy .debug h, ?_⟩
  have hm : (⟨(exCross 6).take Sock.RECV_BUFFER_LEN, 2⟩ : Datagram) ∈ receivedBy 1 tr := by rw [hr]; simp
  exact List.mem_map.mpr ⟨_, receivedBy_mem hm, rfl⟩

end QuicSea
