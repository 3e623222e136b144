import Verif.Proofs.Routing
import Verif.Model.SockHistory
/-
C43, C47-C51, C55: the connection table, one call at a time.
-/
namespace QuicSea
open Spec Sock

/-! ## C43 -/

/-- The two sockets have the same connections but for the one under `key`. -/
def SameBut (k k' : Sock) (key : U160) : Prop := ∀ key', key' ≠ key → k'.streams key' = k.streams key'

/-- C43, full statement: a datagram with destination id `id` is appended to the queue of the connection registered under that
id, and nothing else changes; if there is none, an error is returned and nothing changes. -/
def C43Statement : Prop := ∀ (k : Sock) (d : Datagram) (kind : PacketType) (id : Bytes), Addressed d.data kind id →
  (∀ key x, cidVal key = beNat id → k.streams key = some x →
    ∃ k', k.routeDatagram d = (.ok (), k') ∧ k'.streams key = some { x with queue := x.queue ++ [d] } ∧ SameBut k k' key)
  ∧ ((∀ key, cidVal key = beNat id → k.streams key = none) → ∃ e, k.routeDatagram d = (.err e, k))

/-- C43 for all but Version Negotiation packets. Missing: Version Negotiation packets, which the code routes to the
connection with id 0 (`C43_version_negotiation`). -/
theorem C43_delivers_partial (k : Sock) (d : Datagram) (kind : PacketType) (id : Bytes) (ha : Addressed d.data kind id)
    (hv : kind ≠ .versionNegotiation) :
    (∀ key x, cidVal key = beNat id → k.streams key = some x →
      ∃ k', k.routeDatagram d = (.ok (), k') ∧ k'.streams key = some { x with queue := x.queue ++ [d] } ∧ SameBut k k' key)
    ∧ ((∀ key, cidVal key = beNat id → k.streams key = none) → ∃ e, k.routeDatagram d = (.err e, k)) := by
  have hr : routeVal kind id = beNat id := if_neg hv
  constructor
  · intro key x hk hx
    exact ⟨_, route_known ha (hk.trans hr.symm) hx, tableInsert_same .., fun _ h => tableInsert_other h⟩
  · intro hn
    exact ⟨_, route_unknown ha (fun key h => hn key (h.trans hr))⟩

/-- C43: exactly one of the two cases applies: there is at most one connection under the id. -/
theorem C43_one_connection (key key' : U160) (id : Bytes) (h : cidVal key = beNat id) (h' : cidVal key' = beNat id) : key = key' :=
  cidVal_inj (h.trans h'.symm)

/-- C43: a datagram without a header is refused and changes nothing. -/
theorem C43_malformed (k : Sock) (d : Datagram) (hm : Malformed d.data) : ∃ e, k.routeDatagram d = (.err e, k) :=
  route_malformed hm

/-- Version Negotiation packets are routed to the connection with id 0, whatever their destination id. -/
theorem C43_version_negotiation (k : Sock) (d : Datagram) (id : Bytes) (ha : Addressed d.data .versionNegotiation id) :
    (∀ x, k.streams .zero = some x →
      ∃ k', k.routeDatagram d = (.ok (), k') ∧ k'.streams .zero = some { x with queue := x.queue ++ [d] } ∧ SameBut k k' .zero)
    ∧ (k.streams .zero = none → ∃ e, k.routeDatagram d = (.err e, k)) := by
  constructor
  · intro x hx
    exact ⟨_, route_known (kind := .versionNegotiation) ha cidVal_zero hx, tableInsert_same k.streams U160.zero _, fun _ h => tableInsert_other h⟩
  · intro hn
    refine ⟨_, route_unknown ha fun key h => ?_⟩
    rw [← cidVal_inj (x := .zero) (y := key) (cidVal_zero.trans h.symm)]
    exact hn

/-- So whenever its destination id is not 0, a Version Negotiation packet is never delivered to its own connection. -/
theorem C43_version_negotiation_never_delivered (k k' : Sock) (d : Datagram) (id : Bytes) (ha : Addressed d.data .versionNegotiation id)
    (h0 : beNat id ≠ 0) (r : Out Unit) (h : k.routeDatagram d = (r, k')) (key : U160) (hk : cidVal key = beNat id) :
    k'.streams key = k.streams key := by
  have hne : key ≠ .zero := fun e => h0 (by rw [← hk, e]; exact cidVal_zero)
  cases hx : k.streams .zero with
  | some x =>
    obtain ⟨k1, e1, -, e2⟩ := (C43_version_negotiation k d id ha).1 x hx
    rw [h] at e1
    injection e1 with _ e1
    rw [e1]
    exact e2 key hne
  | none =>
    obtain ⟨e, e1⟩ := (C43_version_negotiation k d id ha).2 hx
    rw [h] at e1
    injection e1 with _ e1
    rw [e1]

/-- An example connection and a socket with connections `5` and `6`. -/
def exRouteConn : Connection :=
  { version := .v1, initialPnInfo := .new, handshakePnInfo := .new, applicationPnInfo := .new, dcid := (.zero, 8), scid := none }
def exTable : Sock :=
  { streams := fun key => if key = .ofU64 5 ∨ key = .ofU64 6 then some (.fromConnection exRouteConn) else none,
    logTraffic := false, printed := [] }
/-- A short-header datagram, an Initial and a Version Negotiation packet for `5`. -/
def exShort : Datagram := ⟨[0x43, 0, 0, 0, 0, 0, 0, 0, 5, 9, 9], 1⟩
def exInitial : Datagram := ⟨[0xc3, 0, 0, 0, 1, 8, 0, 0, 0, 0, 0, 0, 0, 5, 0, 9], 1⟩
def exVn : Datagram := ⟨[0xc3, 0, 0, 0, 0, 8, 0, 0, 0, 0, 0, 0, 0, 5, 0], 1⟩
theorem exShort_addressed : Addressed exShort.data .oneRtt [0, 0, 0, 0, 0, 0, 0, 5] := .inl ⟨0x43, [9, 9], by decide +kernel⟩
theorem exInitial_addressed : Addressed exInitial.data .initial [0, 0, 0, 0, 0, 0, 0, 5] :=
  .inr ⟨0xc3, [0, 0, 0, 1], 8, 0, [], [9], 1, by decide +kernel⟩
theorem exVn_addressed : Addressed exVn.data .versionNegotiation [0, 0, 0, 0, 0, 0, 0, 5] :=
  .inr ⟨0xc3, [0, 0, 0, 0], 8, 0, [], [], 0, by decide +kernel⟩

theorem exTable_five : exTable.streams (.ofU64 5) = some (.fromConnection exRouteConn) := by simp [exTable]

/-- The hypotheses of `C43_delivers_partial` are met: the datagram ends up in the queue of `5`. -/
example : ∃ k', exTable.routeDatagram exShort = (.ok (), k')
    ∧ k'.streams (.ofU64 5) = some { queue := [exShort], connection := exRouteConn } ∧ SameBut exTable k' (.ofU64 5) :=
  (C43_delivers_partial exTable exShort _ _ exShort_addressed (by decide)).1 (.ofU64 5) _ (by decide +kernel) exTable_five
example : ∃ e, Sock.bind.routeDatagram exShort = (.err e, Sock.bind) :=
  (C43_delivers_partial Sock.bind exShort _ _ exShort_addressed (by decide)).2 (fun _ _ => rfl)

theorem C43_false : ¬ C43Statement := by
  intro h
  obtain ⟨k', h1, h2, -⟩ := (h exTable exVn _ _ exVn_addressed).1 (.ofU64 5) _ (by decide +kernel) exTable_five
  have h3 := C43_version_negotiation_never_delivered exTable k' exVn _ exVn_addressed (by decide +kernel) _ h1 (.ofU64 5)
    (by decide +kernel)
  rw [h2, exTable_five] at h3
  injection h3 with h3
  have := congrArg StreamState.queue h3
  simp [StreamState.fromConnection] at this

/-! ## C47 -/

/-- C47: dropping a stream removes its connection and leaves all others, with their queues, unchanged. -/
theorem C47_removes_only (k : Sock) (s : QuicStream) :
    (s.drop k).streams s.connectionId = none ∧ SameBut k (s.drop k) s.connectionId
      ∧ (s.drop k).logTraffic = k.logTraffic ∧ (s.drop k).printed = k.printed :=
  ⟨tableRemove_same .., fun _ h => tableRemove_other h, rfl, rfl⟩

/-- C47: afterwards datagrams for it are refused, and nothing changes. -/
theorem C47_refused_afterwards (k : Sock) (s : QuicStream) (d : Datagram) (kind : PacketType) (id : Bytes)
    (ha : Addressed d.data kind id) (hv : kind ≠ .versionNegotiation) (hid : beNat id = cidVal s.connectionId) :
    ∃ e, (s.drop k).routeDatagram d = (.err e, s.drop k) := by
  refine (C43_delivers_partial _ d kind id ha hv).2 fun key hk => ?_
  rw [cidVal_inj (hk.trans hid)]
  exact (C47_removes_only k s).1

/-- C47: and its packets can no longer be decoded. -/
theorem C47_not_decoded_afterwards (bp : Profile) (k : Sock) (s : QuicStream) (d : Datagram) (kind : PacketType) (id : Bytes)
    (ha : Addressed d.data kind id) (hv : kind ≠ .versionNegotiation) (hid : beNat id = cidVal s.connectionId) :
    ∃ e, (s.drop k).packetsFromDatagram bp d = (.err e, s.drop k) := by
  obtain ⟨hd, s', e, -, hval, -⟩ := addressed_header ha
  have hr : routeVal kind id = beNat id := if_neg hv
  have : hd.getDestinationId = s.connectionId := cidVal_inj ((hval.trans hr).trans hid)
  refine ⟨.internalError "connection not found", ?_⟩
  unfold packetsFromDatagram
  simp only [e, this, (C47_removes_only k s).1]

/-- C47: dropping twice, or dropping an unknown id, changes nothing. -/
theorem C47_drop_unknown (k : Sock) (s : QuicStream) (h : k.streams s.connectionId = none) : s.drop k = k := by
  have : tableRemove k.streams s.connectionId = k.streams := by
    funext key
    by_cases hk : key = s.connectionId
    · rw [hk, tableRemove_same, h]
    · exact tableRemove_other hk
  show { k with streams := tableRemove k.streams s.connectionId } = k
  rw [this]
theorem C47_drop_twice (k : Sock) (s : QuicStream) : s.drop (s.drop k) = s.drop k :=
  C47_drop_unknown _ s (C47_removes_only k s).1

/-- C47: drops of different streams commute. -/
theorem C47_drops_commute (k : Sock) (s s' : QuicStream) : s.drop (s'.drop k) = s'.drop (s.drop k) := by
  show Sock.mk _ _ _ = Sock.mk _ _ _
  congr 1
  funext key
  simp only [QuicStream.drop, dropConnection, tableRemove]
  split <;> split <;> rfl

example : (exTable.streams (.ofU64 5)).isSome ∧ ((QuicStream.mk (.ofU64 5)).drop exTable).streams (.ofU64 5) = none
    ∧ (((QuicStream.mk (.ofU64 5)).drop exTable).streams (.ofU64 6)).isSome := by decide +kernel

/-! ## C49

Stated for what the loop sees: the datagrams after the receive buffer has cut them (`recv_from` with 4096 bytes). -/

/-- What the loop sees of a datagram. -/
def seen (raw : Bytes) (addr : Nat) : Datagram := ⟨raw.take 4096, addr⟩

/-- C49, full statement: waiting for a new connection never panics. -/
def C49Statement : Prop := ∀ (k : Sock) (net : List NetEvent) (w : String), (k.recvNewInitialDatagram net).1 ≠ .panic w

/-- One turn of the loop on a datagram that is not new. -/
theorem loop_step (k : Sock) (raw : Bytes) (addr : Nat) (net : List NetEvent) :
    ∃ p, k.recvNewInitialDatagram (.datagram raw addr :: net) =
      match ({ k with printed := p } : Sock).isNewInitial (seen raw addr) with
      | .ok true => (.ok (seen raw addr), { k with printed := p }, net)
      | .ok false =>
        match ({ k with printed := p } : Sock).routeDatagram (seen raw addr) with
        | (.ok (), k) => recvNewInitialDatagram k net
        | (.err _, k) => (.panic "called `Result::unwrap()` on an `Err` value", k, net)
        | (.panic w, k) => (.panic w, k, net)
      | .err _ => (.panic "model: isNewInitial has no error outcome", { k with printed := p }, net)
      | .panic w => (.panic w, { k with printed := p }, net) := by
  obtain ⟨p, hp⟩ := recv_datagram k raw addr
  exact ⟨p, by rw [recvNewInitialDatagram, hp]; rfl⟩

/-- C49 is false for every malformed datagram. -/
theorem C49_malformed_panics (k : Sock) (raw : Bytes) (addr : Nat) (net : List NetEvent) (h : Malformed (seen raw addr).data) :
    ∃ w, (k.recvNewInitialDatagram (.datagram raw addr :: net)).1 = .panic w := by
  obtain ⟨p, hp⟩ := loop_step k raw addr net
  obtain ⟨e, he⟩ := route_malformed (k := { k with printed := p }) h
  rw [hp, isNew_malformed h]
  simp only [he]
  exact ⟨_, rfl⟩

/-- C49 is false for every datagram other than an Initial that is for no known connection. -/
theorem C49_unknown_panics (k : Sock) (raw : Bytes) (addr : Nat) (net : List NetEvent) (kind : PacketType) (id : Bytes)
    (h : Addressed (seen raw addr).data kind id) (hk : kind ≠ .initial) (hv : kind ≠ .versionNegotiation)
    (hn : ∀ key, cidVal key = beNat id → k.streams key = none) :
    ∃ w, (k.recvNewInitialDatagram (.datagram raw addr :: net)).1 = .panic w := by
  obtain ⟨p, hp⟩ := loop_step k raw addr net
  have hr : routeVal kind id = beNat id := if_neg hv
  obtain ⟨key, hkey⟩ := u160_of_val (beNat id) (beNat_lt_160 (addressed_short h hv))
  have he := route_unknown (k := { k with printed := p }) h (fun key hk => hn key (hk.trans hr))
  rw [hp, isNew_addressed h (hkey.trans hr.symm)]
  simp only [he, hk, decide_false, Bool.false_and]
  exact ⟨_, rfl⟩

/-- A single short datagram brings down a socket without connections. -/
theorem C49_false : ¬ C49Statement := by
  intro h
  obtain ⟨w, hw⟩ := C49_unknown_panics Sock.bind exShort.data 1 [] _ _ exShort_addressed (by decide) (by decide) (fun _ _ => rfl)
  exact h _ _ _ hw
example : Malformed (seen [] 1).data := by
  rintro ⟨k, d, ⟨_, _, h, _⟩ | ⟨_, _, _, _, _, _, _, h, _⟩⟩ <;> simp [seen] at h

/-- `d` is a datagram for the connection `key`. -/
def IsFor (key : U160) (d : Datagram) : Prop :=
  ∃ kind id, Addressed d.data kind id ∧ kind ≠ .versionNegotiation ∧ cidVal key = beNat id

open Classical in
/-- The datagrams for `key`, in order. -/
noncomputable def forConn (key : U160) (ds : List Datagram) : List Datagram := ds.filter fun d => decide (IsFor key d)

/-- C49, the part that holds: datagrams for known connections are routed and the loop goes on. After any number of them, the
loop is where it started with the rest of the input, every queue extended by its own datagrams, in order. Missing: datagrams
that are malformed or for no known connection (`C49_malformed_panics`, `C49_unknown_panics`). -/
theorem C49_known_partial (ds : List (Bytes × Nat)) (k : Sock)
    (h : ∀ r ∈ ds, ∃ key, IsFor key (seen r.1 r.2) ∧ (k.streams key).isSome) (net : List NetEvent) :
    ∃ k' : Sock, k.recvNewInitialDatagram (ds.map (fun r => .datagram r.1 r.2) ++ net) = k'.recvNewInitialDatagram net
      ∧ (∀ key, k.streams key = none → k'.streams key = none)
      ∧ (∀ key x, k.streams key = some x →
          k'.streams key = some { x with queue := x.queue ++ forConn key (ds.map fun r => seen r.1 r.2) })
      ∧ k'.logTraffic = k.logTraffic := by
  induction ds generalizing k with
  | nil =>
    refine ⟨k, rfl, fun _ h => h, fun key x hx => ?_, rfl⟩
    rw [hx]
    simp [forConn]
  | cons r ds ih =>
    obtain ⟨key, ⟨kind, id, ha, hv, hk⟩, hs⟩ := h r List.mem_cons_self
    obtain ⟨x, hx⟩ := Option.isSome_iff_exists.mp hs
    have hr : routeVal kind id = beNat id := if_neg hv
    obtain ⟨p, hp⟩ := loop_step k r.1 r.2 (ds.map (fun r => .datagram r.1 r.2) ++ net)
    have hroute := route_known (k := { k with printed := p }) ha (hk.trans hr.symm) hx
    rw [isNew_addressed ha (hk.trans hr.symm)] at hp
    simp only [hx, Option.isNone_some, Bool.and_false, hroute] at hp
    obtain ⟨k', e1, e2, e3, e4⟩ := ih
      { k with printed := p, streams := tableInsert k.streams key { x with queue := x.queue ++ [seen r.1 r.2] } } (by
        intro r' hr'
        obtain ⟨key', h1, h2⟩ := h r' (List.mem_cons_of_mem _ hr')
        refine ⟨key', h1, ?_⟩
        simp only [tableInsert]
        split
        · rfl
        · exact h2)
    refine ⟨k', by rw [List.map_cons, List.cons_append, hp, e1], ?_, ?_, e4⟩
    · intro key' hn
      refine e2 key' ?_
      have : key' ≠ key := fun e => by rw [e, hx] at hn; cases hn
      exact (tableInsert_other this).trans hn
    · intro key' x' hx'
      by_cases hkk : key' = key
      · subst hkk
        rw [hx] at hx'
        cases hx'
        rw [e3 key' _ (tableInsert_same ..)]
        have : IsFor key' (seen r.1 r.2) := ⟨kind, id, ha, hv, hk⟩
        simp [forConn, this]
      · rw [e3 key' x' ((tableInsert_other hkk).trans hx')]
        have : ¬ IsFor key' (seen r.1 r.2) := by
          rintro ⟨kind', id', ha', -, hk'⟩
          obtain ⟨-, e⟩ := addressed_unique ha ha'
          exact hkk (cidVal_inj (by rw [hk', hk, e]))
        simp [forConn, this]

/-- An Initial for no known connection ends the loop: it is what the loop waits for. -/
theorem C49_new_initial (k : Sock) (raw : Bytes) (addr : Nat) (net : List NetEvent) (id : Bytes)
    (h : Addressed (seen raw addr).data .initial id) (hn : ∀ key, cidVal key = beNat id → k.streams key = none) :
    ∃ p, k.recvNewInitialDatagram (.datagram raw addr :: net) = (.ok (seen raw addr), { k with printed := p }, net) := by
  obtain ⟨p, hp⟩ := loop_step k raw addr net
  have hr : routeVal .initial id = beNat id := if_neg (by decide)
  obtain ⟨key, hkey⟩ := u160_of_val (beNat id) (beNat_lt_160 (addressed_short h (by decide)))
  rw [isNew_addressed h (hkey.trans hr.symm)] at hp
  simp only [hn key hkey] at hp
  exact ⟨p, hp⟩

/-- The hypotheses are met: two datagrams for known connections, then a new Initial. -/
example : IsFor (.ofU64 5) (seen exShort.data 1) ∧ (exTable.streams (.ofU64 5)).isSome :=
  ⟨⟨_, _, exShort_addressed, by decide, by decide +kernel⟩, by decide +kernel⟩

/-! ## C48 -/

/-- C48, full statement: when the Initial datagram of a new client arrives, `accept` returns the id of a new registered
connection. -/
def C48For (P : Prims) : Prop := ∀ (k : Sock) (raw : Bytes) (addr : Nat) (net : List NetEvent) (id : Bytes)
  (srcId : U64) (rng : List U64), Addressed (seen raw addr).data .initial id →
  (∀ key, cidVal key = beNat id → k.streams key = none) → (∀ key, cidVal key = srcId.toNat → k.streams key = none) →
  ∃ key k', k.accept P (.datagram raw addr :: net) (srcId :: rng) = (.ok key, k', net, rng)
    ∧ k.streams key = none ∧ (k'.streams key).isSome
/-- The claim, for all algorithms that obey the laws. -/
def C48Statement : Prop := ∀ P, PrimLaws P → C48For P

/-- C48 is false on every input: `accept` never returns an id, whatever arrives. -/
theorem C48_never (P : Prims) (k k' : Sock) (net net' : List NetEvent) (rng rng' : List U64) (key : U160) :
    k.accept P net rng ≠ (.ok key, k', net', rng') := by
  intro h
  unfold Sock.accept at h
  split at h
  · split at h
    · split at h
      · split at h <;> cases h
      all_goals cases h
    all_goals cases h
  all_goals cases h

theorem C48_public_never (P : Prims) (k k' : Sock) (net net' : List NetEvent) (rng rng' : List U64) (s : QuicStream) :
    QuicSocket.accept P k net rng ≠ (.ok s, k', net', rng') := by
  intro h
  unfold QuicSocket.accept at h
  split at h
  · rename_i e
    exact C48_never P k _ net _ rng _ _ e
  all_goals cases h

theorem register_fresh (k : Sock) (stream : StreamState) (used : List U64) (srcId : U64) (rng : List U64)
    (hu : ∀ u ∈ used, (k.streams (.ofU64 u)).isSome) (hf : k.streams (.ofU64 srcId) = none) :
    k.register stream (used ++ srcId :: rng) = (.ok (.ofU64 srcId),
      { k with
        streams := tableInsert k.streams (.ofU64 srcId) { stream with connection := stream.connection.setScid (.ofU64 srcId) 8 } },
      rng) := by
  induction used with
  | nil => simp [register, hf]
  | cons u used ih =>
    have h1 := hu u List.mem_cons_self
    rw [List.cons_append, register, if_neg (by
      cases hx : k.streams (.ofU64 u) with
      | none => rw [hx] at h1; cases h1
      | some x => simp)]
    exact ih (fun u hu' => hu u (List.mem_cons_of_mem _ hu'))

/-- C48, the part that holds: after any number of datagrams for known connections and any number of random ids already in
use, the new client's connection is created for the destination id the client chose and registered under the first free
random id, with that as its source id, an empty queue and Initial keys derived from the client's id; nothing else changes.
Missing: `accept` then panics instead of returning the id (`C48_never`). -/
theorem C48_registers_partial (P : Prims) (hP : PrimLaws P) (k : Sock) (ds : List (Bytes × Nat)) (raw : Bytes) (addr : Nat)
    (net : List NetEvent) (id : Bytes) (used : List U64) (srcId : U64) (rng : List U64)
    (hds : ∀ r ∈ ds, ∃ key, IsFor key (seen r.1 r.2) ∧ (k.streams key).isSome)
    (ha : Addressed (seen raw addr).data .initial id) (hn : ∀ key, cidVal key = beNat id → k.streams key = none)
    (hu : ∀ u ∈ used, ∃ key, cidVal key = u.toNat ∧ (k.streams key).isSome)
    (key : U160) (hkey : cidVal key = srcId.toNat) (hf : k.streams key = none) :
    ∃ (k' : Sock) (c : Connection) (dcid : U160),
      k.accept P (ds.map (fun r => .datagram r.1 r.2) ++ .datagram raw addr :: net) (used ++ srcId :: rng)
        = (.panic "not yet implemented", k', net, rng)
      ∧ cidVal dcid = beNat id ∧ Connection.new P true .v1 dcid id.length = .ok c
      ∧ k'.streams key = some { queue := [], connection := { c with scid := some (key, 8) } }
      ∧ (∀ key' x, k.streams key' = some x →
          k'.streams key' = some { x with queue := x.queue ++ forConn key' (ds.map fun r => seen r.1 r.2) })
      ∧ (∀ key', key' ≠ key → k.streams key' = none → k'.streams key' = none) := by
  obtain ⟨k1, e1, n1, s1, -⟩ := C49_known_partial ds k hds (.datagram raw addr :: net)
  obtain ⟨p, hp⟩ := C49_new_initial k1 raw addr net id ha (fun key h => n1 key (hn key h))
  rw [hp] at e1
  have hr : routeVal .initial id = beNat id := if_neg (by decide)
  have h20 := addressed_short ha (by decide)
  obtain ⟨dcid, hd⟩ := u160_of_val (beNat id) (beNat_lt_160 h20)
  obtain ⟨c, hc, -, -, -, hnew⟩ := newConnection_ok hP ha (hd.trans hr.symm) h20
  have hsrc : U160.ofU64 srcId = key := cidVal_inj (by rw [cidVal_ofU64, hkey])
  have hreg := register_fresh { k1 with printed := p } (.fromConnection c) used srcId rng (by
      intro u hu'
      obtain ⟨key', h1, h2⟩ := hu u hu'
      rw [← cidVal_ofU64] at h1
      rw [← cidVal_inj h1]
      obtain ⟨x, hx⟩ := Option.isSome_iff_exists.mp h2
      show (k1.streams key').isSome = true
      rw [s1 key' x hx]; rfl) (by rw [hsrc]; exact n1 key hf)
  rw [hsrc] at hreg
  refine ⟨{ k1 with printed := p, streams := tableInsert k1.streams key ⟨[], { c with scid := some (key, 8) }⟩ }, c, dcid, ?_, hd,
    hnew, ?_, ?_, ?_⟩
  · unfold Sock.accept
    rw [e1]
    simp only [hc, hreg, tableInsert_same]
    rfl
  · exact tableInsert_same ..
  · intro key' x hx
    have : key' ≠ key := fun e => by rw [e, hf] at hx; cases hx
    exact (tableInsert_other this).trans (s1 key' x hx)
  · intro key' hne hnone
    exact (tableInsert_other hne).trans (n1 key' hnone)

/-- The hypotheses are met: no earlier datagrams, an Initial for id 5 on an empty socket, random id 7. -/
example : ∃ (k' : Sock) (c : Connection) (dcid : U160),
    Sock.bind.accept toy [.datagram exInitial.data 1] [7] = (.panic "not yet implemented", k', [], [])
    ∧ cidVal dcid = 5 ∧ Connection.new toy true .v1 dcid 8 = .ok c
    ∧ k'.streams (.ofU64 7) = some { queue := [], connection := { c with scid := some (.ofU64 7, 8) } } := by
  obtain ⟨k', c, dcid, h1, h2, h3, h4, -⟩ := C48_registers_partial toy toy_laws Sock.bind [] exInitial.data 1 [] _ [] 7 []
    (by simp) exInitial_addressed (fun _ _ => rfl) (by simp) (.ofU64 7) (by decide +kernel) rfl
  exact ⟨k', c, dcid, h1, h2, h3, h4⟩

theorem C48_false : ¬ C48Statement := by
  intro h
  obtain ⟨key, k', e, -⟩ := h toy toy_laws Sock.bind exInitial.data 1 [] _ 7 [] exInitial_addressed (fun _ _ => rfl) (fun _ _ => rfl)
  exact C48_never _ _ _ _ _ _ _ _ e

/-! ## C50 -/

/-- C50, full statement: after the Initial of a new client has been accepted under `key`, the same datagram is routed to that
connection. -/
def C50For (P : Prims) : Prop := ∀ (k k1 : Sock) (raw : Bytes) (addr : Nat) (id : Bytes) (srcId : U64)
  (rng : List U64) (r : Io U160) (net : List NetEvent) (key : U160), Addressed (seen raw addr).data .initial id →
  (∀ key, cidVal key = beNat id → k.streams key = none) → cidVal key = srcId.toNat → k.streams key = none →
  k.accept P (.datagram raw addr :: net) (srcId :: rng) = (r, k1, net, rng) →
  ∃ x k2, k1.recvNewInitialDatagram [.datagram raw addr] = (.blocked, k2, []) ∧ k1.streams key = some x
    ∧ k2.streams key = some { x with queue := x.queue ++ [seen raw addr] }
/-- The claim, for all algorithms that obey the laws. -/
def C50Statement : Prop := ∀ P, PrimLaws P → C50For P

/-- C50 is false for every Initial whose id is not, by chance, the random id chosen: accepting the same datagram again opens a
second connection, and the first one never sees the datagram. -/
theorem C50_repeat_opens_second (P : Prims) (hP : PrimLaws P) (k : Sock) (raw : Bytes) (addr : Nat) (id : Bytes) (id1 id2 : U64)
    (key1 key2 : U160) (net : List NetEvent) (rng : List U64) (ha : Addressed (seen raw addr).data .initial id)
    (hn : ∀ key, cidVal key = beNat id → k.streams key = none) (h1 : cidVal key1 = id1.toNat) (h2 : cidVal key2 = id2.toNat)
    (f1 : k.streams key1 = none) (f2 : k.streams key2 = none) (hne : key1 ≠ key2) (hid : beNat id ≠ id1.toNat) :
    ∃ (k1 k2 : Sock) (c : Connection),
      k.accept P (.datagram raw addr :: .datagram raw addr :: net) (id1 :: id2 :: rng)
        = (.panic "not yet implemented", k1, .datagram raw addr :: net, id2 :: rng)
      ∧ k1.accept P (.datagram raw addr :: net) (id2 :: rng) = (.panic "not yet implemented", k2, net, rng)
      ∧ k2.streams key1 = some { queue := [], connection := { c with scid := some (key1, 8) } }
      ∧ k2.streams key2 = some { queue := [], connection := { c with scid := some (key2, 8) } } := by
  obtain ⟨k1, c1, d1, a1, v1, c1e, s1, -, o1⟩ := C48_registers_partial P hP k [] raw addr (.datagram raw addr :: net) id []
    id1 (id2 :: rng) (by simp) ha hn (by simp) key1 h1 f1
  obtain ⟨k2, c2, d2, a2, v2, c2e, s2, t2, -⟩ := C48_registers_partial P hP k1 [] raw addr net id []
    id2 rng (by simp) ha (fun key hk => o1 key (fun e => hid (by rw [← hk, e, h1])) (hn key hk)) (by simp) key2 h2
    (o1 key2 hne.symm f2)
  have hd : d1 = d2 := cidVal_inj (v1.trans v2.symm)
  rw [hd, c2e] at c1e
  cases c1e
  have t := t2 key1 _ s1
  simp only [forConn, List.map_nil, List.filter_nil, List.append_nil] at t
  exact ⟨k1, k2, _, a1, a2, t, s2⟩

theorem C50_false : ¬ C50Statement := by
  intro h
  have hreg := C48_registers_partial toy toy_laws Sock.bind [] exInitial.data 1 [] _ [] 7 []
    (by simp) exInitial_addressed (fun _ _ => rfl) (by simp) (.ofU64 7) (by decide +kernel) rfl
  obtain ⟨k1, c, dcid, e, -, -, -, -, ho⟩ := hreg
  obtain ⟨x, k2, h1, -⟩ := h toy toy_laws Sock.bind k1 exInitial.data 1 _ 7 [] _ [] (.ofU64 7) exInitial_addressed (fun _ _ => rfl)
    (by decide +kernel) rfl e
  obtain ⟨p, hp⟩ := C49_new_initial k1 exInitial.data 1 [] _ exInitial_addressed (fun key hk => ho key (by
    rintro rfl
    exact absurd hk (by decide +kernel)) rfl)
  rw [hp] at h1
  cases h1

/-- C50, the part that holds: an Initial (or any other packet) sent to the id the server chose is routed to that connection and
not accepted as new. Missing: an Initial sent to the client's original destination id, as a retransmission is
(`C50_repeat_opens_second`). -/
theorem C50_known_id_partial (k : Sock) (raw : Bytes) (addr : Nat) (id : Bytes) (key : U160) (x : StreamState)
    (net : List NetEvent) (ha : Addressed (seen raw addr).data .initial id) (hk : cidVal key = beNat id) (hx : k.streams key = some x) :
    ∃ k' : Sock, k.recvNewInitialDatagram (.datagram raw addr :: net) = k'.recvNewInitialDatagram net
      ∧ k'.streams key = some { x with queue := x.queue ++ [seen raw addr] } ∧ SameBut k k' key := by
  obtain ⟨k', e, hn, hs, -⟩ := C49_known_partial [(raw, addr)] k (by
    intro r hr
    cases List.mem_singleton.mp hr
    exact ⟨key, ⟨_, _, ha, by decide, hk⟩, by rw [hx]; rfl⟩) net
  refine ⟨k', e, ?_, ?_⟩
  · rw [hs key x hx]
    have : IsFor key (seen raw addr) := ⟨_, _, ha, by decide, hk⟩
    simp [forConn, this]
  · intro key' hne
    cases hx' : k.streams key' with
    | none => exact hn key' hx'
    | some x' =>
      rw [hs key' x' hx']
      have : ¬ IsFor key' (seen raw addr) := by
        rintro ⟨kind', id', ha', -, hk'⟩
        obtain ⟨-, e⟩ := addressed_unique ha ha'
        exact hne (cidVal_inj (by rw [hk', hk, e]))
      simp [forConn, this]

example : Addressed (seen exInitial.data 1).data .initial [0, 0, 0, 0, 0, 0, 0, 5] := exInitial_addressed

/-! ## C51 -/

/-- C51, full statement: datagrams whose destination ids have different lengths are never delivered to the same connection. -/
def C51Statement : Prop := ∀ (k k1 k2 : Sock) (d1 d2 : Datagram) (kind1 kind2 : PacketType) (id1 id2 : Bytes) (key : U160),
  Addressed d1.data kind1 id1 → Addressed d2.data kind2 id2 → id1.length ≠ id2.length →
  k.routeDatagram d1 = (.ok (), k1) → k.routeDatagram d2 = (.ok (), k2) →
  ¬ ((∃ x1, k.streams key = some x1 ∧ k1.streams key = some { x1 with queue := x1.queue ++ [d1] })
    ∧ (∃ x2, k.streams key = some x2 ∧ k2.streams key = some { x2 with queue := x2.queue ++ [d2] }))

/-- C51 is false for every connection and every pair of ids that differ by leading zero bytes: both datagrams are delivered to
it. -/
theorem C51_leading_zeros (k : Sock) (d1 d2 : Datagram) (kind1 kind2 : PacketType) (id : Bytes) (n : Nat) (key : U160) (x : StreamState)
    (h1 : Addressed d1.data kind1 id) (h2 : Addressed d2.data kind2 (List.replicate n 0 ++ id))
    (v1 : kind1 ≠ .versionNegotiation) (v2 : kind2 ≠ .versionNegotiation) (hk : cidVal key = beNat id) (hx : k.streams key = some x) :
    ∃ k1 k2, k.routeDatagram d1 = (.ok (), k1) ∧ k.routeDatagram d2 = (.ok (), k2)
      ∧ k1.streams key = some { x with queue := x.queue ++ [d1] } ∧ k2.streams key = some { x with queue := x.queue ++ [d2] } := by
  obtain ⟨k1, e1, s1, -⟩ := (C43_delivers_partial k d1 kind1 id h1 v1).1 key x hk hx
  obtain ⟨k2, e2, s2, -⟩ := (C43_delivers_partial k d2 kind2 _ h2 v2).1 key x (by rw [beNat_zeros]; exact hk) hx
  exact ⟨k1, k2, e1, e2, s1, s2⟩

/-- An Initial with the one-byte id `5`: delivered to connection `5` like one with the eight-byte id. -/
def exOneByte : Datagram := ⟨[0xc3, 0, 0, 0, 1, 1, 5, 0, 9], 1⟩
theorem exOneByte_addressed : Addressed exOneByte.data .initial [5] :=
  .inr ⟨0xc3, [0, 0, 0, 1], 1, 0, [], [9], 1, by decide +kernel⟩

theorem C51_false : ¬ C51Statement := by
  intro h
  obtain ⟨k1, k2, e1, e2, s1, s2⟩ := C51_leading_zeros exTable exOneByte exInitial _ _ [5] 7 (.ofU64 5) _ exOneByte_addressed
    exInitial_addressed (by decide) (by decide) (by decide +kernel) exTable_five
  exact h _ _ _ _ _ _ _ _ _ _ exOneByte_addressed exInitial_addressed (by decide) e1 e2
    ⟨⟨_, exTable_five, s1⟩, ⟨_, exTable_five, s2⟩⟩

/-- C51, the part that holds: ids of the same length that differ never meet in one connection, nor do ids of different
lengths unless the longer is the shorter with leading zero bytes. Missing: exactly those (`C51_leading_zeros`). -/
theorem C51_different_values_partial (k k1 k2 : Sock) (d1 d2 : Datagram) (kind1 kind2 : PacketType) (id1 id2 : Bytes) (key : U160)
    (x : StreamState) (h1 : Addressed d1.data kind1 id1) (h2 : Addressed d2.data kind2 id2)
    (v1 : kind1 ≠ .versionNegotiation) (v2 : kind2 ≠ .versionNegotiation) (hl : id1.length ≤ id2.length)
    (hne : id2 ≠ List.replicate (id2.length - id1.length) 0 ++ id1)
    (hx : k.streams key = some x) (r1 r2 : Out Unit) (e1 : k.routeDatagram d1 = (r1, k1)) (e2 : k.routeDatagram d2 = (r2, k2)) :
    k1.streams key = some x ∨ k2.streams key = some x := by
  have hval : beNat id1 ≠ beNat id2 := by
    intro e
    apply hne
    refine beNat_inj (by simp; omega) ?_
    rw [beNat_zeros, e]
  have unchanged : ∀ (d : Datagram) kind id (r : Out Unit) k', Addressed d.data kind id → kind ≠ .versionNegotiation →
      cidVal key ≠ beNat id → k.routeDatagram d = (r, k') → k'.streams key = some x := by
    intro d kind id r k' ha hv hk e
    obtain ⟨key', hkey'⟩ := u160_of_val (beNat id) (beNat_lt_160 (addressed_short ha hv))
    have hkk : key ≠ key' := fun e => hk (by rw [e, hkey'])
    cases hx' : k.streams key' with
    | some x' =>
      obtain ⟨k'', e', -, hs⟩ := (C43_delivers_partial k d kind id ha hv).1 key' x' hkey' hx'
      rw [e] at e'
      cases e'
      rw [hs key hkk, hx]
    | none =>
      obtain ⟨er, e'⟩ := (C43_delivers_partial k d kind id ha hv).2 (fun key'' h'' => by
        rw [cidVal_inj (h''.trans hkey'.symm)]; exact hx')
      rw [e] at e'
      cases e'
      exact hx
  by_cases hk : cidVal key = beNat id1
  · exact .inr (unchanged d2 kind2 id2 r2 k2 h2 v2 (fun e => hval (hk.symm.trans e)) e2)
  · exact .inl (unchanged d1 kind1 id1 r1 k1 h1 v1 hk e1)

/-! ## C55 -/

/-- Two sockets that differ at most in the log flag and what has been printed. -/
def SameTable (k k' : Sock) : Prop := k.streams = k'.streams

private theorem recv_log (k k' : Sock) (h : SameTable k k') (e : NetEvent) :
    (k.recvDatagram e).1 = (k'.recvDatagram e).1 ∧ SameTable (k.recvDatagram e).2 (k'.recvDatagram e).2 := by
  cases e with
  | ioError => exact ⟨rfl, h⟩
  | datagram raw addr =>
    obtain ⟨p, e1⟩ := recv_datagram k raw addr
    obtain ⟨p', e2⟩ := recv_datagram k' raw addr
    rw [e1, e2]
    exact ⟨rfl, h⟩

private theorem route_log (k k' : Sock) (h : SameTable k k') (d : Datagram) :
    (k.routeDatagram d).1 = (k'.routeDatagram d).1 ∧ SameTable (k.routeDatagram d).2 (k'.routeDatagram d).2 := by
  unfold routeDatagram
  unfold SameTable at h
  rw [h]
  split
  · dsimp only
    split
    · exact ⟨rfl, rfl⟩
    · exact ⟨rfl, h⟩
  · exact ⟨rfl, h⟩
  · exact ⟨rfl, h⟩

private theorem isNew_log (k k' : Sock) (h : SameTable k k') (d : Datagram) : k.isNewInitial d = k'.isNewInitial d := by
  unfold isNewInitial
  unfold SameTable at h
  rw [h]

private theorem loop_log (net : List NetEvent) (k k' : Sock) (h : SameTable k k') :
    (k.recvNewInitialDatagram net).1 = (k'.recvNewInitialDatagram net).1
    ∧ SameTable (k.recvNewInitialDatagram net).2.1 (k'.recvNewInitialDatagram net).2.1
    ∧ (k.recvNewInitialDatagram net).2.2 = (k'.recvNewInitialDatagram net).2.2 := by
  induction net generalizing k k' with
  | nil => exact ⟨rfl, h, rfl⟩
  | cons e net ih =>
    obtain ⟨r1, r2⟩ := recv_log k k' h e
    unfold recvNewInitialDatagram
    rcases h1 : k.recvDatagram e with ⟨o, k1⟩
    rcases h2 : k'.recvDatagram e with ⟨o', k1'⟩
    rw [h1, h2] at r1 r2
    dsimp only at r1 r2
    subst r1
    cases o with
    | ok d =>
      dsimp only
      rw [isNew_log k1 k1' r2 d]
      cases k1'.isNewInitial d with
      | ok b =>
        cases b with
        | true => exact ⟨rfl, r2, rfl⟩
        | false =>
          obtain ⟨q1, q2⟩ := route_log k1 k1' r2 d
          rcases g1 : k1.routeDatagram d with ⟨p, k2⟩
          rcases g2 : k1'.routeDatagram d with ⟨p', k2'⟩
          rw [g1, g2] at q1 q2
          dsimp only at q1 q2
          subst q1
          cases p with
          | ok u => exact ih k2 k2' q2
          | err e => exact ⟨rfl, q2, rfl⟩
          | panic w => exact ⟨rfl, q2, rfl⟩
      | err e => exact ⟨rfl, r2, rfl⟩
      | panic w => exact ⟨rfl, r2, rfl⟩
    | ioErr => exact ⟨rfl, r2, rfl⟩
    | panic w => exact ⟨rfl, r2, rfl⟩
    | blocked => exact ⟨rfl, r2, rfl⟩

private theorem register_log (rng : List U64) (k k' : Sock) (h : SameTable k k') (s : StreamState) :
    (k.register s rng).1 = (k'.register s rng).1 ∧ SameTable (k.register s rng).2.1 (k'.register s rng).2.1
    ∧ (k.register s rng).2.2 = (k'.register s rng).2.2 := by
  induction rng with
  | nil => exact ⟨rfl, h, rfl⟩
  | cons r rng ih =>
    unfold SameTable at h ⊢
    unfold register
    dsimp only
    rw [h]
    split
    · exact ⟨rfl, rfl, rfl⟩
    · exact ih

private theorem accept_log (P : Prims) (net : List NetEvent) (rng : List U64) (k k' : Sock) (h : SameTable k k') :
    (k.accept P net rng).1 = (k'.accept P net rng).1 ∧ SameTable (k.accept P net rng).2.1 (k'.accept P net rng).2.1
    ∧ (k.accept P net rng).2.2 = (k'.accept P net rng).2.2 := by
  unfold Sock.accept
  obtain ⟨l1, l2, l3⟩ := loop_log net k k' h
  rcases g1 : k.recvNewInitialDatagram net with ⟨o, k1, n1⟩
  rcases g2 : k'.recvNewInitialDatagram net with ⟨o', k1', n1'⟩
  rw [g1, g2] at l1 l2 l3
  dsimp only at l1 l2 l3
  subst l1 l3
  cases o with
  | ok d =>
    dsimp only
    cases newConnectionFor P d with
    | ok c =>
      dsimp only
      obtain ⟨r1, r2, r3⟩ := register_log rng k1 k1' l2 (.fromConnection c)
      rcases q1 : k1.register (.fromConnection c) rng with ⟨o, k2, n2⟩
      rcases q2 : k1'.register (.fromConnection c) rng with ⟨o', k2', n2'⟩
      rw [q1, q2] at r1 r2 r3
      dsimp only at r1 r2 r3
      subst r1 r3
      cases o with
      | ok rv =>
        dsimp only
        have : k2.streams = k2'.streams := r2
        rw [this]
        cases k2'.streams rv <;> exact ⟨rfl, r2, rfl⟩
      | ioErr => exact ⟨rfl, r2, rfl⟩
      | panic w => exact ⟨rfl, r2, rfl⟩
      | blocked => exact ⟨rfl, r2, rfl⟩
    | err e => exact ⟨rfl, l2, rfl⟩
    | panic w => exact ⟨rfl, l2, rfl⟩
  | ioErr => exact ⟨rfl, l2, rfl⟩
  | panic w => exact ⟨rfl, l2, rfl⟩
  | blocked => exact ⟨rfl, l2, rfl⟩

/-- C55: whatever the flags, every call returns the same and leaves the same connections. -/
theorem C55_step (P : Prims) (bp : Profile) (k k' : Sock) (h : SameTable k k') (op : SockOp) :
    (k.step P bp op).1 = (k'.step P bp op).1 ∧ SameTable (k.step P bp op).2 (k'.step P bp op).2 := by
  cases op with
  | accept net rng =>
    obtain ⟨h1, h2, h3⟩ := accept_log P net rng k k' h
    refine ⟨?_, h2⟩
    show SockRes.accepted (k.accept P net rng).1 (k.accept P net rng).2.2.1 (k.accept P net rng).2.2.2
      = SockRes.accepted (k'.accept P net rng).1 (k'.accept P net rng).2.2.1 (k'.accept P net rng).2.2.2
    rw [h1, congrArg Prod.fst h3, congrArg Prod.snd h3]
  | route d =>
    obtain ⟨h1, h2⟩ := route_log k k' h d
    exact ⟨congrArg SockRes.routed h1, h2⟩
  | packets d =>
    unfold Sock.step packetsFromDatagram
    unfold SameTable at h ⊢
    rw [h]
    dsimp only
    split
    · split
      · exact ⟨rfl, h⟩
      · split
        · refine ⟨rfl, ?_⟩
          dsimp only
          split <;> split <;> first | exact h | rfl
        · exact ⟨rfl, h⟩
    · exact ⟨rfl, h⟩
    · exact ⟨rfl, h⟩
  | drop cid =>
    refine ⟨rfl, ?_⟩
    show tableRemove _ _ = tableRemove _ _
    rw [show k.streams = k'.streams from h]
  | setLog flag => exact ⟨rfl, h⟩

/-- Not a log switch. -/
def SockOp.notLog : SockOp → Bool
  | .setLog _ => false
  | _ => true

/-- What a caller sees of a history: the calls other than log switches, with their results. -/
def observed (P : Prims) (bp : Profile) (k : Sock) (ops : List SockOp) : List (SockOp × SockRes) :=
  (ops.zip (k.run P bp ops).1).filter fun p => p.1.notLog

private theorem observed_cons (P : Prims) (bp : Profile) (k : Sock) (op : SockOp) (ops : List SockOp) :
    observed P bp k (op :: ops) =
      if op.notLog then (op, (k.step P bp op).1) :: observed P bp (k.step P bp op).2 ops else observed P bp (k.step P bp op).2 ops := by
  unfold observed
  rw [Sock.run]
  rw [List.zip_cons_cons, List.filter_cons]

private theorem history_log (P : Prims) (bp : Profile) (ops : List SockOp) (k k' : Sock) (h : SameTable k k') :
    observed P bp k ops = observed P bp k' (ops.filter SockOp.notLog)
      ∧ SameTable (k.run P bp ops).2 (k'.run P bp (ops.filter SockOp.notLog)).2 := by
  induction ops generalizing k k' with
  | nil => exact ⟨rfl, h⟩
  | cons op ops ih =>
    rw [observed_cons, List.filter_cons]
    cases hl : op.notLog with
    | true =>
      obtain ⟨h1, h2⟩ := C55_step P bp k k' h op
      obtain ⟨i1, i2⟩ := ih _ _ h2
      rw [if_pos rfl, if_pos rfl, observed_cons, hl, if_pos rfl, h1, i1]
      exact ⟨rfl, i2⟩
    | false =>
      have hs : SameTable (k.step P bp op).2 k' := by
        cases op <;> first | exact h | cases hl
      obtain ⟨i1, i2⟩ := ih _ _ hs
      exact ⟨i1, i2⟩

/-- C55: histories that differ only in when logging is switched on and off have the same results and leave the same
connections. -/
theorem C55_history (P : Prims) (bp : Profile) (ops ops' : List SockOp) (k k' : Sock) (h : SameTable k k')
    (he : ops.filter SockOp.notLog = ops'.filter SockOp.notLog) :
    observed P bp k ops = observed P bp k' ops' ∧ SameTable (k.run P bp ops).2 (k'.run P bp ops').2 := by
  obtain ⟨a1, a2⟩ := history_log P bp ops k k' h
  obtain ⟨b1, b2⟩ := history_log P bp ops' k' k' rfl
  rw [he] at a1 a2
  exact ⟨a1.trans b1.symm, Eq.trans a2 (Eq.symm b2)⟩

/-- The public switch (src/interface.rs:49) does nothing at all. -/
example (k : Sock) (flag : Bool) : QuicSocket.setLogTraffic k flag = k := rfl

/-- The hypotheses are met by histories that do log. -/
example : [SockOp.setLog true, .route exShort, .setLog false].filter SockOp.notLog = [SockOp.route exShort].filter SockOp.notLog := rfl
example : ((exTable.setLogTraffic true).recvDatagram (.datagram exShort.data 1)).2.printed.length = 1 := by
  obtain ⟨hd, s', e, -⟩ := addressed_header exShort_addressed
  have ht : exShort.data.take RECV_BUFFER_LEN = exShort.data := by decide +kernel
  unfold recvDatagram
  simp [setLogTraffic, ht, e, exTable]

end QuicSea
