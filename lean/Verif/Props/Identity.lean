import Verif.Props.Rules
import Verif.Props.Endpoint
import Verif.Props.Concurrent
/-
C78-C80: rules of RFC 9000 on the version, the destination ids and the tokens of received packets.
-/
namespace QuicSea
open Spec

/-! ## C78 -/

/-- C78, full statement (RFC 9000 section 5.2): a connection delivers only packets of its own version. Version 1 is 1 on the wire. -/
def C78For (P : Prims) : Prop := ∀ (bp : Profile) (c : Connection), Connection.Reachable P bp c → ∀ (s s' : Stream) (ps : List Packet),
  decodePackets bp c s = (.ok ps, s') → ∀ p, Packet.initial p ∈ ps → p.header.version.toNat = (match c.version with | .v1 => 1)
/-- The claim, for all algorithms that obey the laws. -/
def C78Statement : Prop := ∀ P, PrimLaws P → C78For P

/-- C78 is false for every version but 0: the packet is delivered, and shows the version it was sent with. -/
theorem C78_any_version_delivered (P : Prims) (hP : PrimLaws P) (bp : Profile) (c : Connection) (hr : Connection.Reachable P bp c) (k : Keys)
    (hk : c.remoteSecrets .initial = .ok (secretsOf P k)) (h : LongPacketHeader) (hp : h.isProtected = false) (token pnB payload out : Bytes) (pn : U64)
    (fs : List Frame) (hw : InitialWire P k h token pnB pn.toNat payload out) (h4 : pnB.length = 4) (hv : beNat pnB = pn.toNat)
    (hfs : FramesWire fs payload) (hpl : ∀ f ∈ fs, Plain f) (_ : h.version.toNat ≠ 1) :
    ∃ p, decodePackets bp c (makeResultStream out) = (.ok [.initial p], []) ∧ p.header.version = h.version ∧ p.packetPayload = fs :=
  ⟨_, delivered P hP bp c hr k hk h hp token pnB payload out pn fs hw h4 hv hfs hpl, rfl, rfl⟩
/-- C78, the part that holds: no Initial packet of version 0 is delivered, whatever the bytes, ...
Missing for the full statement: all other versions, for which it is false (`C78_any_version_delivered`). -/
theorem C78_never_zero_partial (P : Prims) (hP : PrimLaws P) (bp bp' : Profile) (c : Connection) (hr : Connection.Reachable P bp c) (s s' : Stream)
    (p : PacketInitial) (h : decodeNextPacket bp' c s = (.ok (.initial p), s')) : p.header.version.toNat ≠ 0 := by
  obtain ⟨srv, v, d, n, c0, ops, hn, rfl⟩ := hr
  obtain ⟨_, _, _, _, _, _, _, _, _, _, _, _, _, _, g, _⟩ := C33_initial P hP bp bp' srv v d n c0 hn ops s s' p h
  exact kind_version (by rw [g]; decide) (by rw [g]; decide)
/-- ... and all packets built are of the version of the connection.
Missing for the full statement: packets received, for which it is false. -/
theorem C78_built_partial (bp : Profile) (c : Connection) (fs : List Frame) (token : Option Bytes) :
    (∀ p, (PacketInitial.new bp fs token c).1 = .ok p → p.header.version.toNat = (match c.version with | .v1 => 1)) ∧
    (∀ p, (PacketHandshake.new bp fs c).1 = .ok p → p.header.version.toNat = (match c.version with | .v1 => 1)) := by
  constructor
  · intro p h
    obtain ⟨sc, sl, _, _, _, _, e, _⟩ := initialNew_facts h
    rw [e]
    cases c.version
    rfl
  · intro p h
    obtain ⟨sc, sl, _, _, _, _, e, _⟩ := handshakeNew_facts h
    rw [e]
    cases c.version
    rfl

/-- An Initial packet with packet number 1 under the given keys; `pre` is everything from the version to the token. -/
def exSealedWith (k : Keys) (first : U8) (pre payload : Bytes) : Bytes :=
  let mid : Bytes := pre ++ [BitVec.ofNat 8 (payload.length + 20)]
  let ct := (Spec.toy.gcmSeal k.key (rfcNonce k.iv [0, 0, 0, 0, 0, 0, 0, 1]) ([first] ++ mid ++ [0, 0, 0, 1]) payload).getD ([], [])
  let m := (Spec.toy.aesEcb k.hp ((ct.1 ++ ct.2).take 16)).getD []
  [first ^^^ (m[0]! &&& 0x0f)] ++ mid ++ [m[1]!, m[2]!, m[3]!, 1 ^^^ m[4]!] ++ ct.1 ++ ct.2
/-- A packet of version 0x6b3343cf (QUIC version 2, whose keys and type codes are different). -/
def exV2 : Bytes := exSealedWith exKeys 0xc3 [0x6b, 0x33, 0x43, 0xcf, 8, 1, 2, 3, 4, 5, 6, 7, 8, 2, 0x11, 0x22, 0] [1]
def versionsOf (ps : List Packet) : List Nat := ps.filterMap fun | .initial p => some p.header.version.toNat | _ => none
theorem versionsOf_mem {ps : List Packet} {v : Nat} (h : v ∈ versionsOf ps) : ∃ p, Packet.initial p ∈ ps ∧ p.header.version.toNat = v := by
  obtain ⟨q, hq, e⟩ := List.mem_filterMap.mp h
  cases q <;> first | exact ⟨_, hq, Option.some.inj e⟩ | cases e
/-- Non-trivial instance of the delivered packets, and of the built ones. -/
example : versionsOf (okPackets (decodePackets .debug exConn (makeResultStream exV2)).1) = [0x6b3343cf] ∧
    (PacketInitial.new .debug [.ping] none (exClient.run .debug exOps).2).1.isOk = true := by decide +kernel
theorem C78_false : ¬ C78Statement := by
  intro h
  have e := okPackets_eq (decodePackets .debug exConn (makeResultStream exV2)) (by decide +kernel)
  obtain ⟨p, h1, h2⟩ := versionsOf_mem (show 0x6b3343cf ∈ versionsOf (okPackets (decodePackets .debug exConn (makeResultStream exV2)).1) by decide +kernel)
  have := h toy toy_laws .debug exConn exConn_reachable _ _ _ e p h1
  rw [h2] at this
  cases hv : exConn.version
  rw [hv] at this
  exact absurd this (by decide)

/-! ## C79 -/

/-- C79, full statement (RFC 9000 section 12.2): all packets delivered from one datagram have the same destination id. -/
def C79For (P : Prims) : Prop := ∀ (bp : Profile) (c : Connection), Connection.Reachable P bp c → ∀ (s s' : Stream) (ps : List Packet),
  decodePackets bp c s = (.ok ps, s') → ∀ p q, Packet.initial p ∈ ps → Packet.initial q ∈ ps →
  cidVal p.header.destinationConnectionId = cidVal q.header.destinationConnectionId ∧
  p.header.destinationConnectionIdLength = q.header.destinationConnectionIdLength
/-- The claim, for all algorithms that obey the laws. -/
def C79Statement : Prop := ∀ P, PrimLaws P → C79For P

/-- One RFC 9000 Initial packet with a four-byte packet number: its bytes, its header and the rest of its fields. -/
structure SealedInitial where
  header : LongPacketHeader
  token : Bytes
  pnBytes : Bytes
  pn : U64
  payload : Bytes
  frames : List Frame
  bytes : Bytes
/-- It was protected as RFC 9001 prescribes, and has only frames of the plain kinds. -/
def SealedInitial.Ok (P : Prims) (k : Keys) (x : SealedInitial) : Prop :=
  x.header.isProtected = false ∧ InitialWire P k x.header x.token x.pnBytes x.pn.toNat x.payload x.bytes ∧ x.pnBytes.length = 4 ∧
  beNat x.pnBytes = x.pn.toNat ∧ FramesWire x.frames x.payload ∧ ∀ f ∈ x.frames, Plain f

/-- C79 is false for all packets, with whatever destination ids, the same or not and known to the connection or not: all of them are delivered. -/
theorem C79_any_ids_delivered (P : Prims) (hP : PrimLaws P) (bp : Profile) (c : Connection) (hr : Connection.Reachable P bp c) (k : Keys)
    (hk : c.remoteSecrets .initial = .ok (secretsOf P k)) (l : List SealedInitial) (hl : ∀ x ∈ l, x.Ok P k) :
    decodePackets bp c (makeResultStream (l.map SealedInitial.bytes).flatten) =
      (.ok (l.map fun x => .initial ⟨x.header, x.token, x.pn, x.pnBytes, x.frames⟩), []) := by
  have := C36_any_packets bp c (l.map fun x => (x.bytes, Packet.initial ⟨x.header, x.token, x.pn, x.pnBytes, x.frames⟩)) (by
    intro y hy
    obtain ⟨x, hx, rfl⟩ := List.mem_map.mp hy
    obtain ⟨h1, h2, h3, h4, h5, h6⟩ := hl x hx
    exact C32_four_bytes_partial P hP bp c hr k hk x.header h1 x.token x.pnBytes x.payload x.bytes x.pn x.frames h2 h3 h4 (by rw [framesWire_parse h5 h6]))
  simpa [List.map_map, Function.comp_def] using this

/-- C79, the part that holds: the first packet of a datagram, if it is an Initial packet, is delivered by the connection its destination id names.
Missing for the full statement: the packets after the first, for which it is false (`C79_any_ids_delivered`). -/
theorem C79_first_partial (P : Prims) (hP : PrimLaws P) (bp bp' : Profile) (k k' : Sock)
    (hk : ∀ key x, k.streams key = some x → Connection.Reachable P bp x.connection) (d : Datagram) (p : PacketInitial) (ps : List Packet)
    (h : k.packetsFromDatagram bp' d = (.ok (.initial p :: ps), k')) :
    ∃ x, k.streams p.header.destinationConnectionId = some x ∧
      (decodePackets bp' x.connection (makeResultStream d.data)).1 = .ok (.initial p :: ps) := by
  unfold Sock.packetsFromDatagram at h
  dsimp only at h
  rcases hh : nextHeaderFromStream (makeResultStream d.data) with ⟨o, s1⟩
  rw [hh] at h
  cases o with
  | err e => cases h
  | panic w => cases h
  | ok hd =>
    dsimp only at h
    cases hx : k.streams hd.getDestinationId with
    | none => rw [hx] at h; cases h
    | some x =>
      rw [hx] at h
      dsimp only at h
      rcases hd' : decodePackets bp' x.connection (makeResultStream d.data) with ⟨o, s2⟩
      rw [hd'] at h
      cases o with
      | err e => cases h
      | panic w => cases h
      | ok rv =>
        dsimp only at h
        obtain ⟨h, -⟩ := Prod.mk.inj h
        cases Out.ok.inj h
        have hne : makeResultStream d.data ≠ [] := by
          intro e
          rw [e] at hd'
          unfold decodePackets at hd'
          cases hd'
        rw [decodePackets_eq bp' _ _ hne] at hd'
        obtain ⟨q, s3, g1, g2⟩ := Rd.bind_eq_ok hd'
        obtain ⟨qs, s4, g3, g4⟩ := Rd.bind_eq_ok g2
        have hq : q = .initial p := by cases g4; rfl
        subst hq
        obtain ⟨⟨kl, kr, l1, l2, m1, m2⟩, _⟩ := reachable_keys hP (hk _ _ hx)
        obtain ⟨out, hb, tl, lb, pl, skip, L, e1, e2, e3, e4, e5, e6, e7, _⟩ := initial_opened m2 l2.2.1 g1
        obtain ⟨nb, ct, tag, w0, w1, w2, w3, w4, r, pnM, _, _, _, _, _, _, _, _, rfl⟩ := e7
        have hn := nextHeader_wire e2 (by rw [e4]; rfl) (by rw [e4]; decide) ⟨w0, w1, w2, w3, w4⟩ (tl ++ p.token ++ lb ++ pnM ++ skip ++ ct ++ tag) s3
        have he : makeResultStream d.data =
            makeResultStream ((p.header.headerByte ^^^ (w0 &&& 0x0f)) :: (hb ++ (tl ++ p.token ++ lb ++ pnM ++ skip ++ ct ++ tag))) ++ s3 := by
          rw [e1]
          simp
        rw [he, hn] at hh
        obtain ⟨hh, -⟩ := Prod.mk.inj hh
        cases Out.ok.inj hh
        refine ⟨x, hx, ?_⟩
        rw [decodePackets_eq bp' _ _ hne, hd']

/-- The hypothesis is met at every moment of every execution of the socket, by any number of threads. -/
theorem table_reachable {P : Prims} {bp : Profile} {tr} {s : Sys} (hr : Sys.Run P bp Sys.init tr s) (key : U160) (x : StreamState)
    (hx : s.sock.streams key = some x) : Connection.Reachable P bp x.connection := by
  obtain ⟨-, -, c, dcid, len, h1, h2⟩ := C46_own_id hr key x hx
  exact ⟨true, .v1, dcid, len, c, [.setScid key 8], h1, h2⟩
/-- C79, the part that holds, for the packets of a datagram decoded at any moment of any execution: the first packet is to the source id of the
connection that delivers it.
Missing for the full statement: the packets after the first, for which it is false. -/
theorem C79_first_run_partial (P : Prims) (hP : PrimLaws P) (bp bp' : Profile) {tr} (s : Sys) (hr : Sys.Run P bp Sys.init tr s) (k' : Sock)
    (d : Datagram) (p : PacketInitial) (ps : List Packet) (h : s.sock.packetsFromDatagram bp' d = (.ok (.initial p :: ps), k')) :
    ∃ x, s.sock.streams p.header.destinationConnectionId = some x ∧ x.connection.scid = some (p.header.destinationConnectionId, 8) ∧
      (decodePackets bp' x.connection (makeResultStream d.data)).1 = .ok (.initial p :: ps) := by
  obtain ⟨x, h1, h2⟩ := C79_first_partial P hP bp bp' s.sock k' (table_reachable hr) d p ps h
  exact ⟨x, h1, (C46_own_id hr _ x h1).1, h2⟩

/-- Two packets to different ids, of different lengths, in one datagram. -/
def exMixed : Bytes := exSealed 0xc3 [1] ++ exSealedWith exKeys 0xc3 [0, 0, 0, 1, 3, 9, 9, 9, 2, 0x11, 0x22, 0] [1]
def idsOf (ps : List Packet) : List Nat := ps.filterMap fun | .initial p => some (cidVal p.header.destinationConnectionId) | _ => none
theorem idsOf_mem {ps : List Packet} {v : Nat} (h : v ∈ idsOf ps) : ∃ p, Packet.initial p ∈ ps ∧ cidVal p.header.destinationConnectionId = v := by
  obtain ⟨q, hq, e⟩ := List.mem_filterMap.mp h
  cases q <;> first | exact ⟨_, hq, Option.some.inj e⟩ | cases e
/-- Non-trivial instances: both packets are delivered, also by a socket that knows only the id of the first. -/
example : idsOf (okPackets (decodePackets .debug exConn (makeResultStream exMixed)).1) = [0x0102030405060708, 0x090909] ∧
    idsOf (okPackets (Sock.packetsFromDatagram .debug ⟨tableInsert (fun _ => none) ⟨0, 0x0102030405060708⟩ (.fromConnection exConn), false, []⟩ ⟨exMixed, 0⟩).1)
      = [0x0102030405060708, 0x090909] := by decide +kernel
/-- Non-trivial instance in an execution: a client is accepted under id 7 and then sends two packets in a datagram, the first of them to 7. -/
def exAccepted : Sock := (Sock.run toy .debug Sock.bind [.accept [.datagram [0xc3, 0, 0, 0, 1, 8, 0, 0, 0, 0, 0, 0, 0, 5, 0, 9] 1] [7]]).2
def exAcceptedKeys : Keys := match exAccepted.streams (.ofU64 7) with
  | some x => keysOf (x.connection.remoteSecrets .initial)
  | none => ⟨[], [], []⟩
example : ∃ tr s, Sys.Run toy .debug Sys.init tr s ∧ s.sock = exAccepted := by
  obtain ⟨tr, s, h1, h2, -⟩ := history_reachable (P := toy) (bp := .debug) [.accept [.datagram [0xc3, 0, 0, 0, 1, 8, 0, 0, 0, 0, 0, 0, 0, 5, 0, 9] 1] [7]] (by decide)
  exact ⟨tr, s, h1, h2⟩
example : idsOf (okPackets (exAccepted.packetsFromDatagram .debug
    ⟨exSealedWith exAcceptedKeys 0xc3 [0, 0, 0, 1, 8, 0, 0, 0, 0, 0, 0, 0, 7, 0, 0] [1] ++ exSealedWith exAcceptedKeys 0xc3 [0, 0, 0, 1, 1, 8, 0, 0] [1], 1⟩).1) =
      [7, 8] := by decide +kernel
theorem C79_false : ¬ C79Statement := by
  intro h
  have e := okPackets_eq (decodePackets .debug exConn (makeResultStream exMixed)) (by decide +kernel)
  obtain ⟨p, h1, h2⟩ := idsOf_mem (show 0x0102030405060708 ∈ idsOf (okPackets (decodePackets .debug exConn (makeResultStream exMixed)).1) by decide +kernel)
  obtain ⟨q, h3, h4⟩ := idsOf_mem (show 0x090909 ∈ idsOf (okPackets (decodePackets .debug exConn (makeResultStream exMixed)).1) by decide +kernel)
  have := (h toy toy_laws .debug exConn exConn_reachable _ _ _ e p q h1 h3).1
  rw [h2, h4] at this
  exact absurd this (by decide)

/-! ## C80 -/

/-- C80, full statement (RFC 9000 section 17.2.2): servers send no token in an Initial packet, and clients deliver no Initial packet with one. -/
def C80For (P : Prims) : Prop := ∀ (bp : Profile) (v : Version) (d : U160) (n : Nat) (ops : List ConnOp),
  (∀ c0, Connection.new P true v d n = .ok c0 → ∀ fs token p, (PacketInitial.new bp fs token (c0.run bp ops).2).1 = .ok p → p.token = []) ∧
  (∀ c0, Connection.new P false v d n = .ok c0 → ∀ (s s' : Stream) (ps : List Packet), decodePackets bp (c0.run bp ops).2 s = (.ok ps, s') →
    ∀ p, Packet.initial p ∈ ps → p.token = [])
/-- The claim, for all algorithms that obey the laws. -/
def C80Statement : Prop := ∀ P, PrimLaws P → C80For P

/-- C80 is false for all tokens: clients deliver every packet of a server whatever its token, ... -/
theorem C80_any_token_delivered (P : Prims) (hP : PrimLaws P) (bp : Profile) (v : Version) (d : U160) (n : Nat) (c0 : Connection)
    (h0 : Connection.new P false v d n = .ok c0) (ops : List ConnOp) (k : Keys) (hk : c0.remoteSecrets .initial = .ok (secretsOf P k))
    (x : SealedInitial) (hx : x.Ok P k) :
    ∃ p, decodePackets bp (c0.run bp ops).2 (makeResultStream x.bytes) = (.ok [.initial p], []) ∧ p.token = x.token := by
  obtain ⟨h1, h2, h3, h4, h5, h6⟩ := hx
  exact ⟨_, delivered P hP bp _ ⟨false, v, d, n, c0, ops, h0, rfl⟩ k ((run_secrets bp ops c0 .initial).2.trans hk) x.header h1 x.token x.pnBytes x.payload
    x.bytes x.pn x.frames h2 h3 h4 h5 h6, rfl⟩
/-- ... and servers, like clients, put any token into a packet. -/
theorem C80_any_token_built (bp : Profile) (c : Connection) (fs : List Frame) (token : Option Bytes) (t : Bytes) (p : PacketInitial)
    (h : (PacketInitial.new bp fs token c).1 = .ok p) : (PacketInitial.new bp fs (some t) c).1 = .ok { p with token := t } := by
  unfold PacketInitial.new at h ⊢
  rcases e : c.getNextPn bp .initial with ⟨o, c'⟩
  rw [e] at h
  cases o with
  | ok a =>
    dsimp only at h ⊢
    split at h
    · cases h
    · rename_i hn
      rw [if_neg hn]
      obtain ⟨hd, e1, e2⟩ := Out.bind_eq_ok h
      cases e2
      rw [e1]
      rfl
  | err w => cases h
  | panic w => cases h
/-- C80, the part that holds: a packet built without a token has none.
Missing for the full statement: packets received, and packets built with a token, for which it is false (`C80_any_token_delivered`, `C80_any_token_built`). -/
theorem C80_no_token_partial (bp : Profile) (c : Connection) (fs : List Frame) (p : PacketInitial) (h : (PacketInitial.new bp fs none c).1 = .ok p) :
    p.token = [] := by
  obtain ⟨_, _, _, _, _, _, _, e, _⟩ := initialNew_facts h
  exact e

/-- A packet of the server with token 7, 7, to the client of the examples. -/
def exTokenKeys : Keys := keysOf (exClient.remoteSecrets .initial)
def exToken : Bytes := exSealedWith exTokenKeys 0xc3 [0, 0, 0, 1, 2, 0x11, 0x22, 2, 5, 6, 2, 7, 7] [1]
def tokensOf (ps : List Packet) : List Bytes := ps.filterMap fun | .initial p => some p.token | _ => none
theorem tokensOf_mem {ps : List Packet} {v : Bytes} (h : v ∈ tokensOf ps) : ∃ p, Packet.initial p ∈ ps ∧ p.token = v := by
  obtain ⟨q, hq, e⟩ := List.mem_filterMap.mp h
  cases q <;> first | exact ⟨_, hq, Option.some.inj e⟩ | cases e
/-- Non-trivial instances. -/
example : tokensOf (okPackets (decodePackets .debug exClient (makeResultStream exToken)).1) = [[7, 7]] ∧
    (PacketInitial.new .debug [.ping] none (exConn.run .debug [.setScid ⟨0, 5⟩ 8]).2).1.isOk = true := by decide +kernel
theorem C80_false : ¬ C80Statement := by
  intro h
  have e := okPackets_eq (decodePackets .debug exClient (makeResultStream exToken)) (by decide +kernel)
  obtain ⟨p, h1, h2⟩ := tokensOf_mem (show [7, 7] ∈ tokensOf (okPackets (decodePackets .debug exClient (makeResultStream exToken)).1) by decide +kernel)
  have := (h toy toy_laws .debug .v1 ⟨0, 0x0102030405060708⟩ 8 []).2 exClient exClient_new _ _ _ e p h1
  rw [h2] at this
  cases this

end QuicSea
