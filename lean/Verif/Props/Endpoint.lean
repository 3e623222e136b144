import Verif.Props.Conform
import Verif.Props.Routing
/-
C58-C62: what the socket does with the first datagram of a client, end to end.
-/
namespace QuicSea
open Spec Sock

theorem opens_addressed {data : Bytes} {v : U32} {d s : Bytes} (h : OpensWith data v d s) : Addressed data .initial d := by
  obtain ⟨first, vb, dl, sl, rest, h1, h2, h3, h4, h5, h6, h7, h8, h9⟩ := h
  exact .inr ⟨first, vb, dl, sl, s, rest, v, h1, h2, h3, h4, h5, h6, fun _ => ⟨h7, h8⟩, h9.symm⟩

/-- What accepting the first Initial of a client leaves behind. -/
theorem accepted {P : Prims} (hP : PrimLaws P) {k k' : Sock} {raw : Bytes} {addr : Nat} {net net' : List NetEvent} {d : Bytes} {srcId : U64} {rng rng' : List U64}
    {r : Io U160} (ha : Addressed (seen raw addr).data .initial d) (hn : ∀ key, cidVal key = beNat d → k.streams key = none)
    (hf : ∀ key, cidVal key = srcId.toNat → k.streams key = none)
    (h : k.accept P (.datagram raw addr :: net) (srcId :: rng) = (r, k', net', rng')) :
    ∃ key c dcid, cidVal key = srcId.toNat ∧ cidVal dcid = beNat d ∧ Connection.new P true .v1 dcid d.length = .ok c ∧
      k'.streams key = some { queue := [], connection := { c with scid := some (key, 8) } } ∧
      ∀ key', key' ≠ key → k'.streams key' = k.streams key' := by
  obtain ⟨key, hk⟩ := u160_of_val srcId.toNat (by have := srcId.isLt; omega)
  obtain ⟨k1, c, dcid, e, h2, h3, h4, h5, h6⟩ := C48_registers_partial P hP k [] raw addr net d [] srcId rng (by simp) ha hn (by simp) key hk (hf key hk)
  rw [List.map_nil, List.nil_append, List.nil_append, h] at e
  cases e
  refine ⟨key, c, dcid, hk, h2, h3, h4, ?_⟩
  intro key' hne
  cases hx : k.streams key' with
  | none => exact h6 key' hne hx
  | some x => rw [h5 key' x hx]; simp [forConn]

/-! ## C58 -/

/-- The header is addressed to the connection id `s`. -/
def SentTo (h : LongPacketHeader) (s : Bytes) : Prop := h.destinationConnectionIdLength.toNat = s.length ∧ cidVal h.destinationConnectionId = beNat s

/-- C58, full statement (RFC 9000 section 7.2): all packets a server builds for a connection it accepted go to the source id of the client. -/
def C58For (P : Prims) : Prop := ∀ (bp : Profile) (k k' : Sock) (raw : Bytes) (addr : Nat) (net net' : List NetEvent) (v : U32)
  (d s : Bytes) (srcId : U64) (rng rng' : List U64) (r : Io U160), OpensWith (seen raw addr).data v d s →
  (∀ key, cidVal key = beNat d → k.streams key = none) → (∀ key, cidVal key = srcId.toNat → k.streams key = none) →
  k.accept P (.datagram raw addr :: net) (srcId :: rng) = (r, k', net', rng') →
  ∀ key x, k.streams key = none → k'.streams key = some x → ∀ ops fs token,
    (∀ p, (PacketInitial.new bp fs token (x.connection.run bp ops).2).1 = .ok p → SentTo p.header s) ∧
    (∀ p, (PacketHandshake.new bp fs (x.connection.run bp ops).2).1 = .ok p → SentTo p.header s)
/-- The claim, for all algorithms that obey the laws. -/
def C58Statement : Prop := ∀ P, PrimLaws P → C58For P

theorem built_to {bp : Profile} {c : Connection} {d : Bytes} (h20 : d.length ≤ 20) (hc : c.dcid.2 = d.length ∧ cidVal c.dcid.1 = beNat d) (fs : List Frame)
    (token : Option Bytes) : (∀ p, (PacketInitial.new bp fs token c).1 = .ok p → SentTo p.header d) ∧
    (∀ p, (PacketHandshake.new bp fs c).1 = .ok p → SentTo p.header d) := by
  have m : (BitVec.ofNat 8 d.length).toNat = d.length := by rw [BitVec.toNat_ofNat]; exact Nat.mod_eq_of_lt (by omega)
  constructor
  · intro p h
    obtain ⟨sc, sl, e1, e2, e3, e4, e5, e6, e7, _, _⟩ := initialNew_facts h
    rw [e5]
    exact ⟨by dsimp only; rw [hc.1, m], hc.2⟩
  · intro p h
    obtain ⟨sc, sl, e1, e2, e3, e4, e5, e7, _, _⟩ := handshakeNew_facts h
    rw [e5]
    exact ⟨by dsimp only; rw [hc.1, m], hc.2⟩

/-- C58, what happens, for every client and after any history: the server's packets go to the id the client had made up for the server, not to the
client's own id. -/
theorem C58_sent_to_original (P : Prims) (hP : PrimLaws P) (bp : Profile) (k k' : Sock) (raw : Bytes) (addr : Nat) (net net' : List NetEvent) (v : U32)
    (d s : Bytes) (srcId : U64) (rng rng' : List U64) (r : Io U160) (ho : OpensWith (seen raw addr).data v d s)
    (hn : ∀ key, cidVal key = beNat d → k.streams key = none) (hf : ∀ key, cidVal key = srcId.toNat → k.streams key = none)
    (h : k.accept P (.datagram raw addr :: net) (srcId :: rng) = (r, k', net', rng')) (key : U160) (x : StreamState) (hk : k.streams key = none)
    (hx : k'.streams key = some x) (ops : List ConnOp) (fs : List Frame) (token : Option Bytes) :
    (∀ p, (PacketInitial.new bp fs token (x.connection.run bp ops).2).1 = .ok p → SentTo p.header d) ∧
    (∀ p, (PacketHandshake.new bp fs (x.connection.run bp ops).2).1 = .ok p → SentTo p.header d) := by
  obtain ⟨key0, c, dcid, a1, a2, a3, a4, a5⟩ := accepted hP (opens_addressed ho) hn hf h
  have h20 : d.length ≤ 20 := addressed_short (opens_addressed ho) (by decide)
  by_cases e : key = key0
  · subst e
    rw [a4] at hx
    cases hx
    obtain ⟨_, _, _, _, _, _, rfl⟩ := new_ok' a3
    refine built_to h20 ?_ fs token
    rw [(run_ids bp ops _).2]
    exact ⟨rfl, a2⟩
  · rw [a5 key e, hk] at hx
    cases hx

/-- C58 for a client whose source id is the destination id it made up. Missing: all other clients (`C58_sent_to_original`). -/
theorem C58_same_ids_partial (P : Prims) (hP : PrimLaws P) (bp : Profile) (k k' : Sock) (raw : Bytes) (addr : Nat) (net net' : List NetEvent) (v : U32)
    (d s : Bytes) (srcId : U64) (rng rng' : List U64) (r : Io U160) (ho : OpensWith (seen raw addr).data v d s) (hsame : s = d)
    (hn : ∀ key, cidVal key = beNat d → k.streams key = none) (hf : ∀ key, cidVal key = srcId.toNat → k.streams key = none)
    (h : k.accept P (.datagram raw addr :: net) (srcId :: rng) = (r, k', net', rng')) (key : U160) (x : StreamState) (hk : k.streams key = none)
    (hx : k'.streams key = some x) (ops : List ConnOp) (fs : List Frame) (token : Option Bytes) :
    (∀ p, (PacketInitial.new bp fs token (x.connection.run bp ops).2).1 = .ok p → SentTo p.header s) ∧
    (∀ p, (PacketHandshake.new bp fs (x.connection.run bp ops).2).1 = .ok p → SentTo p.header s) := by
  rw [hsame]
  exact C58_sent_to_original P hP bp k k' raw addr net net' v d s srcId rng rng' r ho hn hf h key x hk hx ops fs token

/-- An Initial of a client that calls the server 5 and itself 0x0909. -/
def exOpening : Bytes := [0xc3, 0, 0, 0, 1, 8, 0, 0, 0, 0, 0, 0, 0, 5, 2, 9, 9, 0]
theorem exOpening_opens : OpensWith (seen exOpening 1).data 1 [0, 0, 0, 0, 0, 0, 0, 5] [9, 9] := ⟨0xc3, [0, 0, 0, 1], 8, 2, [0], by decide +kernel⟩
/-- Whatever connection is newly found there, the server can build an Initial packet. -/
theorem exOpening_builds (k' : Sock) (r : Io U160) (net' : List NetEvent) (rng' : List U64)
    (h : Sock.bind.accept toy [.datagram exOpening 1] [7] = (r, k', net', rng')) :
    ∃ x p, k'.streams (.ofU64 7) = some x ∧ (PacketInitial.new .debug [.ping] none (x.connection.run .debug []).2).1 = .ok p ∧
      p.header.destinationConnectionIdLength = 8 := by
  obtain ⟨key, c, dcid, a1, a2, a3, a4, a5⟩ := accepted toy_laws (opens_addressed exOpening_opens) (fun _ _ => rfl) (fun _ _ => rfl) h
  have e : key = .ofU64 7 := cidVal_inj (by rw [a1, cidVal_ofU64])
  subst e
  obtain ⟨_, _, _, _, _, _, rfl⟩ := new_ok' a3
  exact ⟨_, _, a4, rfl, rfl⟩

theorem C58_false : ¬ C58Statement := by
  intro h
  obtain ⟨x, p, h1, h2, h3⟩ := exOpening_builds _ _ _ _ rfl
  have := (h toy toy_laws .debug Sock.bind _ exOpening 1 [] _ 1 _ _ 7 [] _ _ exOpening_opens (fun _ _ => rfl) (fun _ _ => rfl) rfl _ x rfl h1 [] [.ping] none).1
    p h2
  rw [SentTo, h3] at this
  exact absurd this.1 (by decide)

/-! ## C59 -/

/-- C59, full statement (RFC 9000 section 6.1): an Initial packet of any version but 1, the only one the crate knows, opens no connection. -/
def C59For (P : Prims) : Prop := ∀ (k k' : Sock) (raw : Bytes) (addr : Nat) (net' : List NetEvent) (v : U32)
  (d s : Bytes) (rng rng' : List U64) (r : Io U160), OpensWith (seen raw addr).data v d s → v ≠ 1 →
  k.accept P [.datagram raw addr] rng = (r, k', net', rng') → ∀ key, k.streams key = none → k'.streams key = none
/-- The claim, for all algorithms that obey the laws. -/
def C59Statement : Prop := ∀ P, PrimLaws P → C59For P

/-- C59 is false for every version an Initial packet can have: a connection is opened, as one of version 1, with the keys of version 1, and announces
version 1 in every packet built for it. -/
theorem C59_any_version_opens (P : Prims) (hP : PrimLaws P) (bp : Profile) (k k' : Sock) (raw : Bytes) (addr : Nat) (net net' : List NetEvent) (v : U32)
    (d s : Bytes) (srcId : U64) (rng rng' : List U64) (r : Io U160) (ho : OpensWith (seen raw addr).data v d s)
    (hn : ∀ key, cidVal key = beNat d → k.streams key = none) (hf : ∀ key, cidVal key = srcId.toNat → k.streams key = none)
    (h : k.accept P (.datagram raw addr :: net) (srcId :: rng) = (r, k', net', rng')) :
    ∃ key x kc, k.streams key = none ∧ k'.streams key = some x ∧ InitialKeys P false d kc ∧ x.connection.remoteSecrets .initial = .ok (secretsOf P kc) ∧
      ∀ ops fs token p, (PacketInitial.new bp fs token (x.connection.run bp ops).2).1 = .ok p → p.header.version = 1 := by
  have h20 : d.length ≤ 20 := addressed_short (opens_addressed ho) (by decide)
  obtain ⟨key, c, dcid, a1, a2, a3, a4, a5⟩ := accepted hP (opens_addressed ho) hn hf h
  obtain ⟨cid, kl, kr, b1, b2, b3, rfl⟩ := new_ok' a3
  have hcid : cid = d := by
    obtain ⟨l1, l2⟩ := toVarBytes_ok b1
    refine beNat_inj l1 ?_
    rw [l2, a2, Nat.mod_eq_of_lt (beNat_lt d)]
  subst hcid
  refine ⟨key, _, kr, hf key a1, a4, b3, rfl, ?_⟩
  intro ops fs token p hp
  obtain ⟨sc, sl, e1, e2, e3, e4, e5, e6, e7, _, _⟩ := initialNew_facts hp
  rw [e5]
  dsimp only
  rw [(run_ids bp ops _).1]
  rfl

/-- C59, the part that holds: version 0. A Version Negotiation packet never opens a connection.
Missing for the full statement: all other versions, for which it is false (`C59_any_version_opens`). -/
theorem C59_version_zero_partial (P : Prims) (k k' : Sock) (raw : Bytes) (addr : Nat) (net' : List NetEvent) (d : Bytes) (rng rng' : List U64) (r : Io U160)
    (ha : Addressed (seen raw addr).data .versionNegotiation d) (h : k.accept P [.datagram raw addr] rng = (r, k', net', rng')) (key : U160)
    (hk : k.streams key = none) : k'.streams key = none := by
  obtain ⟨p, hp⟩ := recv_datagram k raw addr
  have hnew := fun key0 hk0 => isNew_addressed (k := { k with printed := p }) (key := key0) ha hk0
  obtain ⟨z, hz⟩ := u160_of_val (routeVal .versionNegotiation d) (by simp [routeVal])
  have hnew := hnew z hz
  rw [show decide (PacketType.versionNegotiation = .initial) = false from rfl, Bool.false_and] at hnew
  unfold Sock.accept at h
  rw [recvNewInitialDatagram, hp] at h
  dsimp only at h
  rw [show (⟨raw.take RECV_BUFFER_LEN, addr⟩ : Datagram) = seen raw addr from rfl, hnew] at h
  dsimp only at h
  cases hx : k.streams z with
  | none =>
    rw [route_unknown (k := { k with printed := p }) ha (by
      intro key' hk'
      rw [show key' = z from cidVal_inj (hk'.trans hz.symm)]
      exact hx)] at h
    cases h
    exact hk
  | some x =>
    rw [route_known (k := { k with printed := p }) (x := x) ha hz hx] at h
    simp only [recvNewInitialDatagram] at h
    cases h
    refine (tableInsert_other ?_).trans hk
    rintro rfl
    rw [hk] at hx
    cases hx

/-- An Initial packet of a version that does not exist. -/
def exUnknownVersion : Bytes := [0xc3, 0xfa, 0xce, 0xb0, 0x0c, 8, 0, 0, 0, 0, 0, 0, 0, 5, 2, 9, 9, 0]
theorem exUnknownVersion_opens : OpensWith (seen exUnknownVersion 1).data 0xfaceb00c [0, 0, 0, 0, 0, 0, 0, 5] [9, 9] :=
  ⟨0xc3, [0xfa, 0xce, 0xb0, 0x0c], 8, 2, [0], by decide +kernel⟩
theorem C59_false : ¬ C59Statement := by
  intro h
  obtain ⟨key, x, kc, h1, h2, -⟩ := C59_any_version_opens toy toy_laws .debug Sock.bind _ exUnknownVersion 1 [] _ _ _ _ 7 [] _ _ exUnknownVersion_opens
    (fun _ _ => rfl) (fun _ _ => rfl) rfl
  have := h toy toy_laws Sock.bind _ exUnknownVersion 1 _ _ _ _ [7] _ _ exUnknownVersion_opens (by decide) rfl key h1
  rw [h2] at this
  cases this
/-- Non-trivial instance of the hypotheses of `C59_version_zero_partial`. -/
example : Addressed (seen exVn.data 1).data .versionNegotiation [0, 0, 0, 0, 0, 0, 0, 5] := exVn_addressed

/-! ## C60 -/

/-- C60, full statement: every UDP datagram (at most 65507 bytes of payload over IPv4) is received as it was sent. -/
def C60Statement : Prop := ∀ (k : Sock) (raw : Bytes) (addr : Nat), raw.length ≤ 65507 → (k.recvDatagram (.datagram raw addr)).1 = .ok ⟨raw, addr⟩

/-- C60 for datagrams of up to 4096 bytes, of any content, with traffic logging on or off.
Missing for the full statement: longer datagrams, for which it is false (`C60_truncated`). -/
theorem C60_intact_partial (k : Sock) (raw : Bytes) (addr : Nat) (h : raw.length ≤ 4096) : (k.recvDatagram (.datagram raw addr)).1 = .ok ⟨raw, addr⟩ := by
  obtain ⟨p, hp⟩ := recv_datagram k raw addr
  rw [hp, show raw.take RECV_BUFFER_LEN = raw from List.take_of_length_le h]
/-- C60 fails for every longer one: its first 4096 bytes are taken for the whole datagram, without an error. -/
theorem C60_truncated (k : Sock) (raw : Bytes) (addr : Nat) (h : 4096 < raw.length) :
    ∃ d, (k.recvDatagram (.datagram raw addr)).1 = .ok d ∧ d.data ≠ raw ∧ d.data.length = 4096 ∧ d.data <+: raw := by
  obtain ⟨p, hp⟩ := recv_datagram k raw addr
  rw [hp]
  have hl : (raw.take RECV_BUFFER_LEN).length = 4096 := by
    rw [List.length_take, Nat.min_eq_left]
    · rfl
    · exact Nat.le_of_lt h
  refine ⟨_, rfl, ?_, hl, List.take_prefix ..⟩
  intro e
  dsimp only at e
  rw [e] at hl
  omega
theorem C60_false : ¬ C60Statement := by
  intro h
  have hl : 4096 < (List.replicate 5000 (0 : U8)).length := by rw [List.length_replicate]; decide
  obtain ⟨d, h1, h2, -⟩ := C60_truncated Sock.bind (List.replicate 5000 0) 1 hl
  rw [h Sock.bind (List.replicate 5000 0) 1 (by rw [List.length_replicate]; decide)] at h1
  cases h1
  exact h2 rfl

/-! ## C61 -/

/-- C61, full statement (RFC 9000 section 14.1): a server discards an Initial packet in a datagram of less than 1200 bytes. -/
def C61For (P : Prims) : Prop := ∀ (k k' : Sock) (raw : Bytes) (addr : Nat) (net' : List NetEvent) (v : U32)
  (d s : Bytes) (rng rng' : List U64) (r : Io U160), OpensWith (seen raw addr).data v d s → raw.length < 1200 →
  k.accept P [.datagram raw addr] rng = (r, k', net', rng') → ∀ key, k.streams key = none → k'.streams key = none
/-- The claim, for all algorithms that obey the laws. -/
def C61Statement : Prop := ∀ P, PrimLaws P → C61For P

/-- C61 is false for every datagram that holds an Initial header, of whatever size: it opens a connection. -/
theorem C61_any_size_opens (P : Prims) (hP : PrimLaws P) (k k' : Sock) (raw : Bytes) (addr : Nat) (net net' : List NetEvent) (v : U32)
    (d s : Bytes) (srcId : U64) (rng rng' : List U64) (r : Io U160) (ho : OpensWith (seen raw addr).data v d s)
    (hn : ∀ key, cidVal key = beNat d → k.streams key = none) (hf : ∀ key, cidVal key = srcId.toNat → k.streams key = none)
    (h : k.accept P (.datagram raw addr :: net) (srcId :: rng) = (r, k', net', rng')) :
    ∃ key, k.streams key = none ∧ (k'.streams key).isSome := by
  obtain ⟨key, c, dcid, a1, a2, a3, a4, a5⟩ := accepted hP (opens_addressed ho) hn hf h
  exact ⟨key, hf key a1, by rw [a4]; rfl⟩
/-- C61 for datagrams of less than 7 bytes, which cannot hold a header: nothing changes. Missing: 7 to 1199 bytes (`C61_any_size_opens`). -/
theorem C61_tiny_partial (P : Prims) (k k' : Sock) (raw : Bytes) (addr : Nat) (net' : List NetEvent) (rng rng' : List U64) (r : Io U160) (hl : raw.length < 7)
    (h : k.accept P [.datagram raw addr] rng = (r, k', net', rng')) : k'.streams = k.streams := by
  have hm : Malformed (seen raw addr).data := by
    have hlen : (seen raw addr).data.length < 7 := Nat.lt_of_le_of_lt (List.length_take_le' ..) hl
    rintro ⟨kind, d, ⟨_, _, e, _, h8, _⟩ | ⟨_, vb, _, _, _, _, _, e, _, h4, _⟩⟩
    · rw [e] at hlen
      simp only [List.length_append, List.length_singleton] at hlen
      omega
    · rw [e] at hlen
      simp only [List.length_append, List.length_singleton] at hlen
      omega
  obtain ⟨p, hp⟩ := recv_datagram k raw addr
  obtain ⟨e, he⟩ := route_malformed (k := { k with printed := p }) hm
  unfold Sock.accept at h
  rw [recvNewInitialDatagram, hp] at h
  dsimp only at h
  rw [show (⟨raw.take RECV_BUFFER_LEN, addr⟩ : Datagram) = seen raw addr from rfl, isNew_malformed hm] at h
  dsimp only at h
  rw [he] at h
  cases h
  rfl
theorem C61_false : ¬ C61Statement := by
  intro h
  obtain ⟨key, h1, h2⟩ := C61_any_size_opens toy toy_laws Sock.bind _ exOpening 1 [] _ _ _ _ 7 [] _ _ exOpening_opens (fun _ _ => rfl) (fun _ _ => rfl) rfl
  have := h toy toy_laws Sock.bind _ exOpening 1 _ _ _ _ [7] _ _ exOpening_opens (by decide) rfl key h1
  rw [this] at h2
  cases h2

/-! ## C62 -/

/-- C62, full statement: once a client's first datagram is accepted, the packets in it can be had from the socket: it is in the queue of the new connection,
or decoding it finds the connection. -/
def C62For (P : Prims) : Prop := ∀ (bp : Profile) (k k' : Sock) (raw : Bytes) (addr : Nat) (net net' : List NetEvent) (v : U32)
  (d s : Bytes) (srcId : U64) (rng rng' : List U64) (r : Io U160), OpensWith (seen raw addr).data v d s →
  (∀ key, cidVal key = beNat d → k.streams key = none) → (∀ key, cidVal key = srcId.toNat → k.streams key = none) →
  k.accept P (.datagram raw addr :: net) (srcId :: rng) = (r, k', net', rng') →
  (∃ key x, k.streams key = none ∧ k'.streams key = some x ∧ seen raw addr ∈ x.queue) ∨
  (k'.packetsFromDatagram bp (seen raw addr)).1 ≠ .err (.internalError "connection not found")
/-- The claim, for all algorithms that obey the laws. -/
def C62Statement : Prop := ∀ P, PrimLaws P → C62For P

/-- C62 is false for every client whose made-up id is not, by chance, the random id the server takes: the datagram is gone. The new connection's queue is
empty, and decoding the datagram fails for want of the connection it has just opened. -/
theorem C62_opening_lost (P : Prims) (hP : PrimLaws P) (bp : Profile) (k k' : Sock) (raw : Bytes) (addr : Nat) (net net' : List NetEvent) (v : U32)
    (d s : Bytes) (srcId : U64) (rng rng' : List U64) (r : Io U160) (ho : OpensWith (seen raw addr).data v d s)
    (hn : ∀ key, cidVal key = beNat d → k.streams key = none) (hf : ∀ key, cidVal key = srcId.toNat → k.streams key = none)
    (hne : beNat d ≠ srcId.toNat) (h : k.accept P (.datagram raw addr :: net) (srcId :: rng) = (r, k', net', rng')) :
    (∀ key x, k.streams key = none → k'.streams key = some x → x.queue = []) ∧
    k'.packetsFromDatagram bp (seen raw addr) = (.err (.internalError "connection not found"), k') := by
  obtain ⟨key0, c, dcid, a1, a2, a3, a4, a5⟩ := accepted hP (opens_addressed ho) hn hf h
  constructor
  · intro key x hk hx
    by_cases e : key = key0
    · subst e
      rw [a4] at hx
      cases hx
      rfl
    · rw [a5 key e, hk] at hx
      cases hx
  · obtain ⟨hd, s', e, -, hv, -⟩ := addressed_header (opens_addressed ho)
    have hr : routeVal .initial d = beNat d := if_neg (by decide)
    rw [hr] at hv
    have : k'.streams hd.getDestinationId = none := by
      rw [a5 _ (by rintro e; rw [e, a1] at hv; exact hne hv.symm)]
      exact hn _ hv
    unfold packetsFromDatagram
    simp only [e, this]

/-- C62, the part that holds, end to end: after a client's first Initial is accepted, any further RFC 9000 Initial packet of that client, sent to the id the
server chose, under the keys RFC 9001 derives from the id of the first Initial, with a four-byte packet number, is queued for that connection, and
decoding it delivers exactly its contents. Missing: the first datagram itself (`C62_opening_lost`). -/
theorem C62_follow_up_partial (P : Prims) (hP : PrimLaws P) (bp : Profile) (k k' : Sock) (raw : Bytes) (addr : Nat) (net net' : List NetEvent) (v : U32)
    (d s : Bytes) (srcId : U64) (rng rng' : List U64) (r : Io U160) (ho : OpensWith (seen raw addr).data v d s)
    (hn : ∀ key, cidVal key = beNat d → k.streams key = none) (hf : ∀ key, cidVal key = srcId.toNat → k.streams key = none)
    (h : k.accept P (.datagram raw addr :: net) (srcId :: rng) = (r, k', net', rng'))
    (kc : Keys) (hkc : InitialKeys P false d kc) (hdr : LongPacketHeader) (hp : hdr.isProtected = false)
    (hto : cidVal hdr.destinationConnectionId = srcId.toNat) (token pnB payload out : Bytes) (pn : U64) (fs : List Frame)
    (hw : InitialWire P kc hdr token pnB pn.toNat payload out) (h4 : pnB.length = 4) (hv : beNat pnB = pn.toNat)
    (hfs : (deserializeFrames (makeResultStream payload)).1 = .ok fs) (hlen : out.length ≤ 4096) (addr' : Nat) (net2 : List NetEvent) :
    (k'.packetsFromDatagram bp ⟨out, addr'⟩).1 =
      .ok [.initial { header := hdr, token, packetNumber := pn, packetNumberBytes := pnB, packetPayload := fs }] ∧
    ∃ (key : U160) (k2 : Sock) (x : StreamState), cidVal key = srcId.toNat ∧ k'.recvNewInitialDatagram (.datagram out addr' :: net2) = k2.recvNewInitialDatagram net2 ∧
      k2.streams key = some x ∧ x.queue = [⟨out, addr'⟩] := by
  obtain ⟨key, c, dcid, a1, a2, a3, a4, a5⟩ := accepted hP (opens_addressed ho) hn hf h
  obtain ⟨cid, kl, kr, b1, b2, b3, hc⟩ := new_ok' a3
  have hcid : cid = d := by
    obtain ⟨l1, l2⟩ := toVarBytes_ok b1
    refine beNat_inj l1 ?_
    rw [l2, a2, Nat.mod_eq_of_lt (beNat_lt d)]
  subst hcid
  have e := initialKeys_unique hkc b3
  subst e
  have hreach : Connection.Reachable P bp { c with scid := some (key, 8) } := ⟨true, .v1, dcid, _, c, [.setScid key 8], a3, rfl⟩
  have hk : ({ c with scid := some (key, 8) } : Connection).remoteSecrets .initial = .ok (secretsOf P kc) := by rw [hc]; rfl
  have hto' : hdr.destinationConnectionId = key := cidVal_inj (hto.trans a1.symm)
  have hdec := C32_four_bytes_partial P hP bp _ hreach kc hk hdr hp token pnB payload out pn fs hw h4 hv hfs
  have hiv := (reachable_iv hP hreach hk).2.1
  have hw' := hw
  obtain ⟨hb, tl, lb, w1, w2, w3, w4, w5, w6⟩ := hw
  obtain ⟨m, ct, tag, hout, f1, f2, f3, f4, f5⟩ := protected_facts hP hiv w6
  have hhead : ∃ x s', nextHeaderFromStream (makeResultStream out) = (.ok (.long x), s') ∧ x.destinationConnectionId = key ∧
      packetKind x.headerByte x.version = .initial := by
    refine ⟨protHeader hdr m, makeResultStream (tl ++ token ++ lb ++ (pnB.zipWith (· ^^^ ·) (maskList m)) ++ ct ++ tag) ++ [], ?_, hto', ?_⟩
    · have := nextHeader_wire w1 (by rw [w2]; rfl) (by rw [w2]; decide) m (tl ++ token ++ lb ++ (pnB.zipWith (· ^^^ ·) (maskList m)) ++ ct ++ tag) []
      rw [hout]
      simp only [List.append_assoc, List.append_nil] at this ⊢
      exact this
    · exact (kind_xor _ _ _).trans w2
  constructor
  · obtain ⟨x, s', e1, e2, -⟩ := hhead
    unfold packetsFromDatagram
    simp only [e1, PacketHeader.getDestinationId, e2, a4]
    have := C36_any_packets bp _ [(out, _)] (by
      intro y hy
      cases List.mem_singleton.mp hy
      exact hdec)
    simp only [List.map_cons, List.map_nil, List.flatten_cons, List.flatten_nil, List.append_nil] at this
    rw [this]
  · obtain ⟨x, s', e1, e2, e3⟩ := hhead
    obtain ⟨kind, id, g1, g2, g3, -⟩ := header_addressed e1
    obtain ⟨_, _, _, hlong, _⟩ := nextHeader_long_iff.mp e1
    have g2' : (PacketHeader.long x).getPacketType = .ok .initial := (packetType_eq x hlong).trans (by rw [e3])
    rw [g2'] at g2
    cases g2
    have hseen : seen out addr' = ⟨out, addr'⟩ := by unfold seen; rw [List.take_of_length_le hlen]
    obtain ⟨k2, q1, q2, -⟩ := C50_known_id_partial k' out addr' id key _ net2 (by rw [hseen]; exact g1) (by
      rw [show routeVal .initial id = beNat id from if_neg (by decide)] at g3
      rw [← g3]
      exact congrArg cidVal e2.symm) a4
    exact ⟨key, k2, _, a1, q1, q2, by rw [hseen]; rfl⟩
/-- The second Initial packet of that client, now sent to the id the server chose, 7. -/
def exFollow : PacketInitial :=
  { header := ⟨0xc3, 1, 8, ⟨0, 7⟩, 2, ⟨0, 0x0909⟩, none, false⟩, token := [], packetNumber := 2, packetNumberBytes := [0, 0, 0, 2]
    packetPayload := [.crypto ⟨0, 3, [1, 2, 3]⟩, .ping] }
/-- Non-trivial instance of the hypotheses of `C62_follow_up_partial`: keys, header, packet and frames. -/
example : ∃ kc payload out, InitialKeys toy false [0, 0, 0, 0, 0, 0, 0, 5] kc ∧ InitialWire toy kc exFollow.header [] [0, 0, 0, 2] 2 payload out ∧
    (deserializeFrames (makeResultStream payload)).1 = .ok exFollow.packetPayload ∧ cidVal exFollow.header.destinationConnectionId = 7 := by
  obtain ⟨c, hc⟩ := new_total toy toy_laws false .v1 ⟨0, 5⟩ 8 (by decide)
  obtain ⟨cid, kl, kr, b1, b2, b3, e0⟩ := new_ok' hc
  have hk : c.localSecrets .initial = .ok (secretsOf toy kl) := by rw [e0]; rfl
  have e : cid = [0, 0, 0, 0, 0, 0, 0, 5] := by
    obtain ⟨l1, l2⟩ := toVarBytes_ok b1
    exact beNat_inj l1 (l2.trans (by decide))
  subst e
  obtain ⟨-, h2, h3⟩ := C57_initial_any toy toy_laws _ kl (initialKeys_lens toy_laws b2) hk exFollow (by unfold LongOk; decide +kernel) rfl (by decide +kernel)
    (by decide +kernel) (by decide +kernel) [6, 0, 3, 1, 2, 3, 1] (by decide +kernel) (by decide) (by decide)
  obtain ⟨out, ho⟩ := h2.mpr (by decide)
  exact ⟨kl, _, out, b2, h3 out ho, by decide +kernel, by decide +kernel⟩
theorem C62_false : ¬ C62Statement := by
  intro h
  obtain ⟨h1, h2⟩ := C62_opening_lost toy toy_laws .debug Sock.bind _ exOpening 1 [] _ _ _ _ 7 [] _ _ exOpening_opens (fun _ _ => rfl) (fun _ _ => rfl)
    (by decide) rfl
  rcases h toy toy_laws .debug Sock.bind _ exOpening 1 [] _ _ _ _ 7 [] _ _ exOpening_opens (fun _ _ => rfl) (fun _ _ => rfl) rfl with ⟨key, x, g1, g2, g3⟩ | g
  · rw [h1 key x g1 g2] at g3
    cases g3
  · exact g (congrArg Prod.fst h2)

end QuicSea
