import Verif.Props.Debug
/-
C102: formatting a socket does not show keys. False: it shows all of them.
-/
namespace Spec
open QuicSea

/-- What has to stay secret. -/
def material (s : Secrets) : Bytes × Option Bytes × Bytes := (s.hp, s.iv, s.key)
/-- Secrets with the material taken out. -/
def wipeSecrets (s : Secrets) : Secrets := { s with hp := [], iv := none, key := [] }
def wipePn (i : PnInfo) : PnInfo := { i with localTlsSecrets := i.localTlsSecrets.map wipeSecrets, remoteTlsSecrets := i.remoteTlsSecrets.map wipeSecrets }
def wipe (c : Connection) : Connection :=
  { c with initialPnInfo := wipePn c.initialPnInfo, handshakePnInfo := wipePn c.handshakePnInfo, applicationPnInfo := wipePn c.applicationPnInfo }
/-- All that a packet number space and a connection hold, but for the functions of the cipher suites. -/
def contentsPn (i : PnInfo) := (i.largestRemoteAck, i.largestLocalAck, i.nextPn, i.localTlsSecrets.map material, i.remoteTlsSecrets.map material)
def contents (c : Connection) := (c.version, contentsPn c.initialPnInfo, contentsPn c.handshakePnInfo, contentsPn c.applicationPnInfo, c.dcid, c.scid)
/-- A table, listed in some order. -/
def Lists (t : U160 → Option StreamState) (es : List (U160 × StreamState)) : Prop :=
  (es.map (·.1)).Nodup ∧ ∀ d st, (d, st) ∈ es ↔ t d = some st
/-- Two sockets with the same table but for keys and queues. -/
def SameButKeys (k k' : Sock) : Prop :=
  k.logTraffic = k'.logTraffic ∧ ∀ d, (k.streams d).map (fun s => wipe s.connection) = (k'.streams d).map fun s => wipe s.connection
end Spec

namespace QuicSea
open Spec Sock

/-- C102 as one would have it: sockets that differ in their keys only have the same texts. -/
def C102Statement : Prop :=
  ∀ (k k' : Sock), SameButKeys k k' → ∀ (l : Locks) (udp : List Char) (es : List (U160 × StreamState)), Lists k.streams es →
    ∃ es', Lists k'.streams es' ∧ (k.dbg l udp es).render = (k'.dbg l udp es').render

/-! ## the text of a connection -/

theorem Version.dbg_wf' (x : Version) : x.dbg.wf = true ∧ x.dbg.shown = true := by
  cases x; exact ⟨(by decide : isName "V1" = true), rfl⟩
theorem dbgBytes_wf' (x : Bytes) : (dbgBytes x).wf = true ∧ (dbgBytes x).shown = true := ⟨dbgBytes_wf x, rfl⟩
theorem Secrets.dbg_wf (x : Secrets) : x.dbg.wf = true := by
  wf_tac [Secrets.dbg, CipherSuite.dbg, dbgOption_wf dbgBytes_wf']
theorem Secrets.dbg_wf' (x : Secrets) : x.dbg.wf = true ∧ x.dbg.shown = true := ⟨x.dbg_wf, rfl⟩
theorem PnInfo.dbg_wf (x : PnInfo) : x.dbg.wf = true := by
  wf_tac [PnInfo.dbg, dbgOption_wf dbgInt_wf', dbgOption_wf Secrets.dbg_wf']
theorem dbgCid_wf (x : U160 × Nat) : (dbgCid x).wf = true := by
  simp [dbgCid, Dbg.wf, Dbg.wfList, U160.dbg_wf', show (Dbg.num x.2).shown = true from rfl]
theorem dbgCid_wf' (x : U160 × Nat) : (dbgCid x).wf = true ∧ (dbgCid x).shown = true := ⟨dbgCid_wf x, rfl⟩
theorem Connection.dbg_wf (x : Connection) : x.dbg.wf = true := by
  wf_tac [Connection.dbg, (Version.dbg_wf' _).1, PnInfo.dbg_wf, dbgCid_wf, dbgOption_wf dbgCid_wf']

theorem dbgBytes_inj' (x y : Bytes) : dbgBytes x = dbgBytes y ↔ x = y := dbgBytes_inj
theorem Secrets.dbg_material {x y : Secrets} (h : x.dbg = y.dbg) : material x = material y := by
  simp only [Secrets.dbg, Dbg.struct.injEq, List.cons.injEq, Prod.mk.injEq, true_and, and_true, dbgBytes_inj, dbgOption_inj dbgBytes_inj', CipherSuite.dbg] at h
  simp [material, h]
theorem option_material {x y : Option Secrets} (h : dbgOption Secrets.dbg x = dbgOption Secrets.dbg y) : x.map material = y.map material := by
  cases x <;> cases y <;> simp [dbgOption] at h ⊢
  exact Secrets.dbg_material h
theorem PnInfo.dbg_material {x y : PnInfo} (h : x.dbg = y.dbg) :
    x.localTlsSecrets.map material = y.localTlsSecrets.map material ∧ x.remoteTlsSecrets.map material = y.remoteTlsSecrets.map material := by
  simp only [PnInfo.dbg, Dbg.struct.injEq, List.cons.injEq, Prod.mk.injEq, true_and, and_true] at h
  exact ⟨option_material h.2.2.2.1, option_material h.2.2.2.2⟩
theorem Connection.dbg_material {x y : Connection} (h : x.dbg = y.dbg) (sp : PnSpace) :
    (x.pnInfo sp).localTlsSecrets.map material = (y.pnInfo sp).localTlsSecrets.map material
    ∧ (x.pnInfo sp).remoteTlsSecrets.map material = (y.pnInfo sp).remoteTlsSecrets.map material := by
  simp only [Connection.dbg, Dbg.struct.injEq, List.cons.injEq, Prod.mk.injEq, true_and, and_true] at h
  cases sp
  · exact PnInfo.dbg_material h.1
  · exact PnInfo.dbg_material h.2.1
  · exact PnInfo.dbg_material h.2.2.1

theorem dbgCid_inj (x y : U160 × Nat) : dbgCid x = dbgCid y ↔ x = y := by
  cases x; cases y
  simp [dbgCid, U160.dbg_inj]
theorem PnInfo.dbg_contents {x y : PnInfo} (h : x.dbg = y.dbg) : contentsPn x = contentsPn y := by
  obtain ⟨m1, m2⟩ := PnInfo.dbg_material h
  simp only [PnInfo.dbg, Dbg.struct.injEq, List.cons.injEq, Prod.mk.injEq, true_and, and_true, dbgOption_inj dbgInt_inj', dbgInt_inj] at h
  simp [contentsPn, h.1, h.2.1, h.2.2.1, m1, m2]
theorem Connection.dbg_contents {x y : Connection} (h : x.dbg = y.dbg) : contents x = contents y := by
  simp only [Connection.dbg, Dbg.struct.injEq, List.cons.injEq, Prod.mk.injEq, true_and, and_true, dbgCid_inj, dbgOption_inj dbgCid_inj] at h
  have h1 := h.1; have h2 := h.2.1; have h3 := h.2.2.1; have h4 := h.2.2.2.1; have h5 := h.2.2.2.2
  have hv : ∀ v w : Version, v = w := fun v w => by cases v; cases w; rfl
  simp [contents, hv x.version y.version, PnInfo.dbg_contents h1, PnInfo.dbg_contents h2, PnInfo.dbg_contents h3, h4, h5]

/-! ## the text of a socket -/

/-- An entry in the text of a table: something, the text of its connection, a comma, something. -/
theorem entries_text (d : U160) (post : List (U160 × StreamState)) : ∀ pre : List (U160 × StreamState), ∃ A B, ∀ st : StreamState,
    Dbg.renderEntries ((pre ++ (d, st) :: post).map fun e => (e.1.dbg, e.2.dbg)) = A ++ st.connection.dbg.render ++ ',' :: B := by
  intro pre
  induction pre with
  | nil =>
    cases post with
    | nil =>
      refine ⟨d.dbg.render ++ [':', ' '] ++ "InternalQuicStream { receiver: Receiver { .. }, sender: Sender { .. }, connection: RwLock { data: ".toList,
        " poisoned: false, .. } }".toList, fun st => ?_⟩
      simp [Dbg.renderEntries, StreamState.dbg, dbgLock, Dbg.render, Dbg.renderFields, dbgBool]
    | cons e post =>
      refine ⟨d.dbg.render ++ [':', ' '] ++ "InternalQuicStream { receiver: Receiver { .. }, sender: Sender { .. }, connection: RwLock { data: ".toList,
        " poisoned: false, .. } }, ".toList ++ Dbg.renderEntries ((e :: post).map fun e => (e.1.dbg, e.2.dbg)), fun st => ?_⟩
      simp [Dbg.renderEntries, StreamState.dbg, dbgLock, Dbg.render, Dbg.renderFields, dbgBool]
  | cons e pre ih =>
    obtain ⟨A, B, h⟩ := ih
    refine ⟨e.1.dbg.render ++ [':', ' '] ++ e.2.dbg.render ++ [',', ' '] ++ A, B, fun st => ?_⟩
    have hc : ∀ (a : Dbg × Dbg) (xs : List (Dbg × Dbg)), xs ≠ [] →
        Dbg.renderEntries (a :: xs) = a.1.render ++ [':', ' '] ++ a.2.render ++ [',', ' '] ++ Dbg.renderEntries xs := by
      intro a xs hx
      cases xs with
      | nil => exact absurd rfl hx
      | cons b xs => rfl
    rw [List.cons_append, List.map_cons, hc _ _ (by simp), h st]
    simp
/-- The same for a socket whose table is not locked. -/
theorem sock_text (k : Sock) (l : Locks) (hl : l.streamsLocked = false) (udp : List Char) (d : U160) (pre post : List (U160 × StreamState)) :
    ∃ A B, ∀ st : StreamState, (k.dbg l udp (pre ++ (d, st) :: post)).render = A ++ st.connection.dbg.render ++ ',' :: B := by
  obtain ⟨A, B, h⟩ := entries_text d post pre
  refine ⟨"QuicSocket { socket: InternalQuicSocket { socket: ".toList ++ (dbgLock "Mutex" l.socketLocked l.socketPoisoned (.raw udp)).render ++
    ", streams: RwLock { data: {".toList ++ A, B ++ "}, poisoned: ".toList ++ (dbgBool l.streamsPoisoned).render ++ ", .. }, log_traffic: ".toList ++
    (dbgLock "RwLock" l.logLocked l.logPoisoned (dbgBool k.logTraffic)).render ++ " } }".toList, fun st => ?_⟩
  simp only [Sock.dbg, dbgLock, hl, Bool.false_eq_true, if_false, Dbg.render, Dbg.renderFields, h st, List.append_assoc]
  simp

/-- C102 is false for all sockets: whenever no other thread is changing the table, the text of a socket contains the text of every one of its connections, ... -/
theorem C102_connections_shown (k : Sock) (l : Locks) (hl : l.streamsLocked = false) (udp : List Char) (es : List (U160 × StreamState))
    (he : Lists k.streams es) (d : U160) (st : StreamState) (hd : k.streams d = some st) :
    st.connection.dbg.render <:+: (k.dbg l udp es).render := by
  obtain ⟨pre, post, rfl⟩ := List.append_of_mem ((he.2 d st).2 hd)
  obtain ⟨A, B, h⟩ := sock_text k l hl udp d pre post
  exact ⟨A, ',' :: B, (h st).symm⟩
/-- ... and that text determines all its keys, in all packet number spaces and both directions, ... -/
theorem C102_keys_determined (a b : Connection) (h : a.dbg.render = b.dbg.render) (sp : PnSpace) :
    (a.pnInfo sp).localTlsSecrets.map material = (b.pnInfo sp).localTlsSecrets.map material
    ∧ (a.pnInfo sp).remoteTlsSecrets.map material = (b.pnInfo sp).remoteTlsSecrets.map material :=
  Connection.dbg_material (Dbg.render_inj _ _ (r := []) (r' := []) a.dbg_wf b.dbg_wf trivial trivial (by simpa using h)).1 sp
/-- ... and all else it holds, ids, counters and acknowledgements; it depends on nothing more. -/
theorem C102_connection_exact (a b : Connection) : a.dbg.render = b.dbg.render ↔ contents a = contents b := by
  refine ⟨fun h => Connection.dbg_contents (Dbg.render_inj _ _ (r := []) (r' := []) a.dbg_wf b.dbg_wf trivial trivial (by simpa using h)).1, fun h => ?_⟩
  have hs : ∀ x y : Option Secrets, x.map material = y.map material → dbgOption Secrets.dbg x = dbgOption Secrets.dbg y := by
    intro x y h
    cases x <;> cases y <;> simp [material] at h
    · rfl
    · simp [dbgOption, Secrets.dbg, CipherSuite.dbg, h]
  have hp : ∀ x y : PnInfo, contentsPn x = contentsPn y → x.dbg = y.dbg := by
    intro x y h
    simp only [contentsPn, Prod.mk.injEq] at h
    simp [PnInfo.dbg, h.1, h.2.1, h.2.2.1, hs _ _ h.2.2.2.1, hs _ _ h.2.2.2.2]
  simp only [contents, Prod.mk.injEq] at h
  obtain ⟨-, h2, h3, h4, h5, h6⟩ := h
  simp [Connection.dbg, hp _ _ h2, hp _ _ h3, hp _ _ h4, h5, h6]
/-- ... so that changing a key of any connection changes the text of the socket. -/
theorem C102_keys_shown (k : Sock) (l : Locks) (hl : l.streamsLocked = false) (udp : List Char) (d : U160) (pre post : List (U160 × StreamState))
    (a b : StreamState) (h : (k.dbg l udp (pre ++ (d, a) :: post)).render = (k.dbg l udp (pre ++ (d, b) :: post)).render) (sp : PnSpace) :
    (a.connection.pnInfo sp).localTlsSecrets.map material = (b.connection.pnInfo sp).localTlsSecrets.map material
    ∧ (a.connection.pnInfo sp).remoteTlsSecrets.map material = (b.connection.pnInfo sp).remoteTlsSecrets.map material := by
  obtain ⟨A, B, ht⟩ := sock_text k l hl udp d pre post
  rw [ht a, ht b, List.append_assoc, List.append_assoc, List.append_cancel_left_eq] at h
  exact Connection.dbg_material (Dbg.render_inj _ _ a.connection.dbg_wf b.connection.dbg_wf (tail_comma B) (tail_comma B) h).1 sp

/-- C102, the part that holds: the datagrams waiting to be read and the traffic logged so far are not shown, ...
Missing for the full statement: the keys, which are shown (`C102_keys_shown`). -/
theorem C102_queues_partial (k : Sock) (l : Locks) (udp : List Char) (es : List (U160 × StreamState)) (p : List LogLine)
    (q : U160 × StreamState → List Datagram) :
    ({ k with printed := p }.dbg l udp (es.map fun e : U160 × StreamState => (e.1, { e.2 with queue := q e }))).render = (k.dbg l udp es).render := by
  simp only [Sock.dbg, List.map_map, Function.comp_def, StreamState.dbg]
/-- ... and while a thread is changing the table, none of it is.
Missing for the full statement: the keys in a table that no thread is changing, which are shown (`C102_keys_shown`). -/
theorem C102_locked_partial (k : Sock) (l : Locks) (hl : l.streamsLocked = true) (udp : List Char) (es es' : List (U160 × StreamState)) :
    (k.dbg l udp es).render = (k.dbg l udp es').render := by
  simp only [Sock.dbg, dbgLock, hl, if_true]

theorem lists_insert {t : U160 → Option StreamState} {es : List (U160 × StreamState)} (h : Lists t es) {d : U160} (hd : t d = none) (st : StreamState) :
    Lists (tableInsert t d st) ((d, st) :: es) := by
  constructor
  · rw [List.map_cons, List.nodup_cons]
    refine ⟨fun hm => ?_, h.1⟩
    obtain ⟨e, he, h1⟩ := List.mem_map.1 hm
    have := (h.2 e.1 e.2).1 he
    rw [h1, hd] at this
    cases this
  · intro x st'
    by_cases hx : x = d
    · subst hx
      have : (x, st') ∉ es := fun hm => by rw [(h.2 x st').1 hm] at hd; cases hd
      simp [tableInsert, this, eq_comm]
    · simp [tableInsert, hx, h.2]
theorem lists_empty : Lists (fun _ => none) [] := ⟨List.nodup_nil, by simp⟩
/-- The lists of a table with one entry. -/
theorem lists_one {d : U160} {st : StreamState} {es : List (U160 × StreamState)} (h : Lists (tableInsert (fun _ => none) d st) es) : es = [(d, st)] := by
  have all : ∀ e ∈ es, e = (d, st) := by
    intro e he
    have := (h.2 e.1 e.2).1 he
    unfold tableInsert at this
    split at this
    · next h1 => cases this; rw [← h1]
    · cases this
  have mem : (d, st) ∈ es := (h.2 d st).2 (by simp [tableInsert])
  match es, all, mem, h.1 with
  | [e], all, _, _ => rw [all e (by simp)]
  | e :: f :: es, all, _, hn =>
    have h1 := all e (by simp)
    have h2 := all f (by simp)
    simp [h1, h2] at hn

/-- A server with one connection, the one of the examples but with the given key for Initial packets. -/
def exKeyed (b : U8) : StreamState := .fromConnection
  { exConn with initialPnInfo := { exConn.initialPnInfo with localTlsSecrets := exConn.initialPnInfo.localTlsSecrets.map fun s => { s with key := [b] } } }
def exKeySocket (b : U8) : Sock := { Sock.bind with streams := tableInsert (fun _ => none) ⟨0, 7⟩ (exKeyed b) }
theorem C102_false : ¬ C102Statement := by
  intro h
  have hs : SameButKeys (exKeySocket 1) (exKeySocket 2) := by
    refine ⟨rfl, fun d => ?_⟩
    simp only [exKeySocket, tableInsert]
    split
    · simp [exKeyed, StreamState.fromConnection, wipe, wipePn, wipeSecrets, Function.comp_def]
    · rfl
  obtain ⟨es', h1, h2⟩ := h _ _ hs ⟨false, false, false, false, false, false⟩ [] [(⟨0, 7⟩, exKeyed 1)] (lists_insert lists_empty rfl _)
  rw [lists_one h1] at h2
  have h3 := (C102_keys_shown (exKeySocket 1) _ rfl [] ⟨0, 7⟩ [] [] (exKeyed 1) (exKeyed 2) h2 .initial).1
  have h4 : ∀ b : U8, ((exKeyed b).connection.pnInfo .initial).localTlsSecrets.map (fun s => (material s).2.2) = some [b] := by
    intro b
    have : exConn.initialPnInfo.localTlsSecrets.isSome = true := by decide +kernel
    obtain ⟨s, hs⟩ := Option.isSome_iff_exists.1 this
    simp [exKeyed, StreamState.fromConnection, Connection.pnInfo, hs, material]
  have h5 := congrArg (Option.map fun m => m.2.2) h3
  rw [Option.map_map, Option.map_map] at h5
  exact absurd ((h4 1).symm.trans (h5.trans (h4 2))) (by decide)

/-- Non-trivial instance: a socket after `register`, as `accept` calls it, and what is shown of it. -/
def exRegistered : Sock := (Sock.bind.register (.fromConnection exConn) [7]).2.1
example : ∃ es st, Lists exRegistered.streams es ∧ exRegistered.streams (.ofU64 7) = some st ∧ (st.connection.pnInfo .initial).localTlsSecrets.isSome = true :=
  ⟨_, _, lists_insert lists_empty rfl _, rfl, by decide +kernel⟩
def exShown : String :=
  "QuicSocket { socket: InternalQuicSocket { socket: Mutex { data: UdpSocket, poisoned: false, .. }, streams: RwLock { data: {U160 { idx0: 0, idx1: 7 }: InternalQuicStream { "
example : exShown.toList <+: (exRegistered.dbg ⟨false, false, false, false, false, false⟩ "UdpSocket".toList [(.ofU64 7, .fromConnection exConn)]).render := by
  decide +kernel
example : ({ secretsOf toy exKeys with hp := [3], iv := some [2, 255], key := [1] } : Secrets).dbg.render =
    "Secrets { cipher_suite: , hp: [3], iv: Some([2, 255]), key: [1] }".toList := by decide +kernel

/-- Instance: connections that differ in the source id only have different texts. -/
example : contents (exConn.setScid ⟨0, 1⟩ 1) ≠ contents (exConn.setScid ⟨0, 2⟩ 1) ∧ (exConn.setScid ⟨0, 1⟩ 1).dbg.render ≠ (exConn.setScid ⟨0, 2⟩ 1).dbg.render := by
  have h : contents (exConn.setScid ⟨0, 1⟩ 1) ≠ contents (exConn.setScid ⟨0, 2⟩ 1) := by simp [contents, Connection.setScid]
  exact ⟨h, fun e => h ((C102_connection_exact _ _).1 e)⟩

end QuicSea
