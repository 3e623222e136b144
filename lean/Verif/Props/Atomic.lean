import Verif.Props.Send
import Verif.Props.History
/-
C116: what is left of a call that failed.
-/
namespace QuicSea
open Spec Sock

/-- C116, full statement: a call that ends with an error or a panic leaves what it was called on as it was: the connection for building packets, the
table of connections with their queues for the calls of a socket. -/
def C116For (P : Prims) : Prop :=
  (∀ (bp : Profile) (c : Connection), Connection.Reachable P bp c → ∀ fs token,
    kindOf (PacketInitial.new bp fs token c).1 ≠ .ok → (PacketInitial.new bp fs token c).2 = c) ∧
  (∀ (bp : Profile) (c : Connection), Connection.Reachable P bp c → ∀ fs,
    kindOf (PacketHandshake.new bp fs c).1 ≠ .ok → (PacketHandshake.new bp fs c).2 = c) ∧
  (∀ (k : Sock) (d : Datagram), kindOf (k.routeDatagram d).1 ≠ .ok → (k.routeDatagram d).2 = k) ∧
  (∀ (bp : Profile) (k : Sock) (d : Datagram), kindOf (k.packetsFromDatagram bp d).1 ≠ .ok → (k.packetsFromDatagram bp d).2 = k) ∧
  (∀ (k : Sock) (net : List NetEvent) (rng : List U64), (∀ id, (k.accept P net rng).1 ≠ .ok id) →
    (k.accept P net rng).2.1.streams = k.streams)
/-- The claim, for all algorithms. -/
def C116Statement : Prop := ∀ P, C116For P

theorem getNextPn_effect {P : Prims} {bp : Profile} {c : Connection} (h : Connection.Reachable P bp c) (sp : PnSpace) :
    (kindOf (c.getNextPn bp sp).1 = .panic → (c.getNextPn bp sp).2 = c) ∧
    (kindOf (c.getNextPn bp sp).1 ≠ .panic →
      (c.getNextPn bp sp).2 = c.setPnInfo sp { c.pnInfo sp with nextPn := (c.pnInfo sp).nextPn + 1 }) := by
  have hk := number_kind h sp
  have hlt := (c.pnInfo sp).nextPn.isLt
  unfold numberKind at hk
  by_cases h2 : (c.pnInfo sp).nextPn.toNat + 1 < 2 ^ 64
  · have e : (c.getNextPn bp sp).2 = c.setPnInfo sp { c.pnInfo sp with nextPn := (c.pnInfo sp).nextPn + 1 } := by rw [getNextPn_eq bp c sp h2]
    refine ⟨fun hp => ?_, fun _ => e⟩
    rw [hp, if_pos h2] at hk
    split at hk <;> cases hk
  · rw [if_neg (by omega), if_neg h2] at hk
    cases bp with
    | debug =>
      refine ⟨fun _ => ?_, fun hp => absurd hk hp⟩
      unfold Connection.getNextPn
      simp only [addU64]
      rw [if_neg (show ¬ (c.pnInfo sp).nextPn.toNat + BitVec.toNat (1 : U64) < 2 ^ 64 by rw [show BitVec.toNat (1 : U64) = 1 from rfl]; omega)]
    | release =>
      refine ⟨fun hp => (by rw [hp] at hk; cases hk), fun _ => ?_⟩
      unfold Connection.getNextPn
      dsimp only
      rw [addU64_release]

/-- **C116, exactly**, for building packets: whether it succeeds or is an error, it uses up one packet number and changes nothing else; only a panic
leaves the connection as it was. -/
theorem C116_build_exact (P : Prims) (bp : Profile) (c : Connection) (h : Connection.Reachable P bp c) (fs : List Frame) (token : Option Bytes) :
    ((kindOf (PacketInitial.new bp fs token c).1 = .panic ∧ (PacketInitial.new bp fs token c).2 = c) ∨
      (kindOf (PacketInitial.new bp fs token c).1 ≠ .panic ∧
        (PacketInitial.new bp fs token c).2 = c.setPnInfo .initial { c.pnInfo .initial with nextPn := (c.pnInfo .initial).nextPn + 1 })) ∧
    ((kindOf (PacketHandshake.new bp fs c).1 = .panic ∧ (PacketHandshake.new bp fs c).2 = c) ∨
      (kindOf (PacketHandshake.new bp fs c).1 ≠ .panic ∧
        (PacketHandshake.new bp fs c).2 = c.setPnInfo .handshake { c.pnInfo .handshake with nextPn := (c.pnInfo .handshake).nextPn + 1 })) := by
  have hkind : ∀ (a : Kind) (o : Option (U160 × Nat)), a.andThen (idKind o) = .panic ↔ a = .panic := by
    intro a o; cases a <;> cases o <;> simp [Kind.andThen, idKind]
  rw [initialNew_conn, handshakeNew_conn, initialNew_kind h, handshakeNew_kind h]
  simp only [ne_eq, hkind]
  rw [← number_kind h .initial, ← number_kind h .handshake]
  constructor
  · obtain ⟨e1, e2⟩ := getNextPn_effect h .initial
    by_cases hp : kindOf (c.getNextPn bp .initial).1 = .panic
    · exact .inl ⟨hp, e1 hp⟩
    · exact .inr ⟨hp, e2 hp⟩
  · obtain ⟨e1, e2⟩ := getNextPn_effect h .handshake
    by_cases hp : kindOf (c.getNextPn bp .handshake).1 = .panic
    · exact .inl ⟨hp, e1 hp⟩
    · exact .inr ⟨hp, e2 hp⟩

/-- C116 fails for every building that is an error, on every connection: a packet number is gone. -/
theorem C116_error_uses_number (P : Prims) (bp : Profile) (c : Connection) (h : Connection.Reachable P bp c) (fs : List Frame) (token : Option Bytes)
    (he : kindOf (PacketInitial.new bp fs token c).1 = .err) :
    (PacketInitial.new bp fs token c).2 ≠ c ∧ ((PacketInitial.new bp fs token c).2.pnInfo .initial).nextPn = (c.pnInfo .initial).nextPn + 1 := by
  have e2 : (PacketInitial.new bp fs token c).2 = c.setPnInfo .initial { c.pnInfo .initial with nextPn := (c.pnInfo .initial).nextPn + 1 } := by
    rcases (C116_build_exact P bp c h fs token).1 with ⟨e1, -⟩ | ⟨-, e2⟩
    · rw [he] at e1; cases e1
    · exact e2
  have e3 : ((PacketInitial.new bp fs token c).2.pnInfo .initial).nextPn = (c.pnInfo .initial).nextPn + 1 := by rw [e2]; rfl
  refine ⟨fun e => ?_, e3⟩
  rw [e] at e3
  have := congrArg BitVec.toNat e3
  rw [BitVec.toNat_add, show BitVec.toNat (1 : U64) = 1 from rfl] at this
  have := (c.pnInfo .initial).nextPn.isLt
  omega

/-- **C116, partial**: a datagram that cannot be routed, and one that cannot be decoded, change nothing at all. Missing: building packets
(`C116_build_exact`) and accepting (`C116_accept_exact`). -/
theorem C116_calls_partial :
    (∀ (k : Sock) (d : Datagram), kindOf (k.routeDatagram d).1 ≠ .ok → (k.routeDatagram d).2 = k) ∧
    (∀ (bp : Profile) (k : Sock) (d : Datagram), kindOf (k.packetsFromDatagram bp d).1 ≠ .ok → (k.packetsFromDatagram bp d).2 = k) := by
  constructor
  · intro k d
    unfold routeDatagram
    cases (nextHeaderFromStream (makeResultStream d.data)).1 with
    | ok x =>
      dsimp only
      cases k.streams x.getDestinationId with
      | none => exact fun _ => rfl
      | some y => exact fun h => absurd rfl h
    | err e => exact fun _ => rfl
    | panic w => exact fun _ => rfl
  · intro bp k d
    unfold packetsFromDatagram
    dsimp only
    cases (nextHeaderFromStream (makeResultStream d.data)).1 with
    | ok x =>
      dsimp only
      cases k.streams x.getDestinationId with
      | none => exact fun _ => rfl
      | some y =>
        dsimp only
        cases (decodePackets bp y.connection (makeResultStream d.data)).1 with
        | ok ps => exact fun h => absurd rfl h
        | err e => exact fun _ => rfl
        | panic w => exact fun _ => rfl
    | err e => exact fun _ => rfl
    | panic w => exact fun _ => rfl

theorem register_new (rng : List U64) (k : Sock) (y : StreamState) :
    (∃ id, (k.register y rng).1 = .ok id ∧ k.streams id = none ∧ (k.register y rng).2.1.streams id = some { y with connection := y.connection.setScid id 8 } ∧
      ∀ key, key ≠ id → (k.register y rng).2.1.streams key = k.streams key) ∨
    ((k.register y rng).1 = .blocked ∧ (k.register y rng).2.1 = k) := by
  induction rng with
  | nil => exact .inr ⟨rfl, rfl⟩
  | cons r rng ih =>
    unfold register
    dsimp only
    split
    · rename_i hn
      exact .inl ⟨_, rfl, Option.isNone_iff_eq_none.mp hn, tableInsert_same .., fun key hk => tableInsert_other hk⟩
    · exact ih

/-- **C116, exactly**, for `accept`, which never succeeds (C48): the connections there were have gained the datagrams for them that were taken from
the network, nothing else of them changed and none is gone. No connection is new, or exactly one is: then it is without a datagram, a datagram was
taken for which it was made, and the call panicked with the connection in the table. -/
theorem C116_accept_exact (P : Prims) (k : Sock) (net : List NetEvent) (rng : List U64) :
    ∃ used, net = used ++ (k.accept P net rng).2.2.1 ∧
      (∀ key x, k.streams key = some x → (k.accept P net rng).2.1.streams key = some { x with queue := x.queue ++ destined key (arrived used) }) ∧
      ((∀ key, k.streams key = none → (k.accept P net rng).2.1.streams key = none) ∨
       ∃ why id d c, (k.accept P net rng).1 = .panic why ∧ k.streams id = none ∧ newConnectionFor P d = .ok c ∧
          (k.accept P net rng).2.1.streams id = some { queue := [], connection := c.setScid id 8 } ∧
          ∀ key, key ≠ id → k.streams key = none → (k.accept P net rng).2.1.streams key = none) := by
  obtain ⟨used, e1, hg⟩ := wait_gains net k
  refine ⟨used, ?_⟩
  unfold accept
  generalize k.recvNewInitialDatagram net = r at e1 hg
  obtain ⟨o, k1, net1⟩ := r
  dsimp only at e1 hg
  cases o with
  | ok d =>
    dsimp only
    cases hc : newConnectionFor P d with
    | ok c =>
      dsimp only
      have hk := fun key x => register_keeps rng k1 (.fromConnection c) key x
      have hn := register_new rng k1 (.fromConnection c)
      generalize k1.register (.fromConnection c) rng = r2 at hk hn
      obtain ⟨o2, k2, rng2⟩ := r2
      dsimp only at hk hn
      have m2 := fun key x (hx : k.streams key = some x) => hk key _ ((hg key).1 x hx)
      rcases hn with ⟨id, rfl, hf, hs, ho⟩ | ⟨rfl, rfl⟩
      · have hid : k.streams id = none := by
          cases hx : k.streams id with
          | none => rfl
          | some x => rw [(hg id).1 x hx] at hf; cases hf
        dsimp only
        rw [hs]
        exact ⟨e1, m2, .inr ⟨_, id, d, c, rfl, hid, hc, hs, fun key hne hx => (ho key hne).trans ((hg key).2 hx)⟩⟩
      · exact ⟨e1, m2, .inl fun key => (hg key).2⟩
    | _ => exact ⟨e1, fun key x hx => (hg key).1 x hx, .inl fun key => (hg key).2⟩
  | _ => exact ⟨e1, fun key x hx => (hg key).1 x hx, .inl fun key => (hg key).2⟩

/-- C45 for one call of `accept`, on any socket: the connections there were are there afterwards under the ids they had, with what was queued for them first;
at most one id is new, it was free, and its connection answers to it. -/
theorem C45_accept (P : Prims) (k : Sock) (net : List NetEvent) (rng : List U64) :
    (∀ key x, k.streams key = some x → ∃ more, (k.accept P net rng).2.1.streams key = some { x with queue := x.queue ++ more }) ∧
    ∀ id id' y y', k.streams id = none → k.streams id' = none → (k.accept P net rng).2.1.streams id = some y → (k.accept P net rng).2.1.streams id' = some y' →
      id = id' ∧ y.queue = [] ∧ y.connection.scid = some (id, 8) := by
  obtain ⟨used, -, h1, h2⟩ := C116_accept_exact P k net rng
  refine ⟨fun key x hx => ⟨_, h1 key x hx⟩, fun id id' y y' hn hn' hy hy' => ?_⟩
  rcases h2 with h2 | ⟨_, id0, d, c, -, -, -, h3, h4⟩
  · rw [h2 id hn] at hy; cases hy
  · have e : id = id0 := Classical.byContradiction fun h => by rw [h4 id h hn] at hy; cases hy
    have e' : id' = id0 := Classical.byContradiction fun h => by rw [h4 id' h hn'] at hy'; cases hy'
    subst e e'
    rw [h3] at hy
    cases hy
    exact ⟨rfl, rfl, rfl⟩

theorem C116_false : ¬ C116Statement := by
  intro h
  have hr : Connection.Reachable toy .debug exConn := ⟨true, .v1, _, 8, exConn, [], exConn_new, rfl⟩
  have he : kindOf (PacketInitial.new .debug [.ping] none exConn).1 = .err := by decide +kernel
  exact (C116_error_uses_number toy .debug exConn hr [.ping] none he).1 ((h toy).1 .debug exConn hr [.ping] none (by rw [he]; decide))

/-- Instances: a connection without an id of its own; building twice is an error twice and uses up two numbers. A socket without connections, to which
the Initial packet of a client comes: `accept` panics, and the connection stays in the table under the random id 7. A datagram nobody waits for. -/
example : kindOf (PacketInitial.new .debug [.ping] none exConn).1 = .err ∧ (exConn.pnInfo .initial).nextPn = 0 ∧
    ((PacketInitial.new .debug [.ping] none (PacketInitial.new .debug [.ping] none exConn).2).2.pnInfo .initial).nextPn = 2 := by decide +kernel
example : (Sock.bind.accept toy [.datagram exInitial.data 1] [7]).2.1.streams (.ofU64 7) ≠ none ∧ Sock.bind.streams (.ofU64 7) = none := by decide +kernel
example : kindOf (Sock.bind.routeDatagram exInitial).1 = .err := by decide +kernel
example : kindOf (PacketInitial.new .debug [.ping] none
    (exConn.setPnInfo .initial { exConn.pnInfo .initial with nextPn := 0xffffffffffffffff })).1 = .panic := by decide +kernel

end QuicSea
