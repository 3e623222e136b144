import Verif.Proofs.Build
import Verif.Props.Crypto
import Verif.Props.Frame
import Verif.Props.Header
/-
C31, C36, C37, C52, C53: packets built, serialized and decoded.
-/
namespace QuicSea
open Spec

/-- The two ends of one connection, after any history on each side. `server` says which end sends. -/
def Peers (P : Prims) (bp bp' : Profile) (sender receiver : Connection) : Prop :=
  ∃ server v d n s0 r0 ops ops', n ≤ 20 ∧ cidVal d < 256 ^ n ∧ Connection.new P server v d n = .ok s0 ∧ Connection.new P (!server) v d n = .ok r0 ∧
    sender = (s0.run bp ops).2 ∧ receiver = (r0.run bp' ops').2

/-- A source connection id has been set; it has at most 20 bytes and fits them. -/
def HasScid (c : Connection) : Prop := ∃ sc sl, c.scid = some (sc, sl) ∧ sl ≤ 20 ∧ cidVal sc < 256 ^ sl

theorem peers_facts {P : Prims} (hP : PrimLaws P) {bp bp' : Profile} {cs cr : Connection} (h : Peers P bp bp' cs cr) (hs : HasScid cs) :
    IdsOk cs ∧ (∃ k, KeyLens k ∧ cs.localSecrets .initial = .ok (secretsOf P k) ∧ cr.remoteSecrets .initial = .ok (secretsOf P k)) ∧
    (cs.pnInfo .initial).largestLocalAck = none ∧ (cr.pnInfo .initial).largestRemoteAck = none ∧
    Connection.Reachable P bp cs ∧ Connection.Reachable P bp' cr := by
  obtain ⟨server, v, d, n, s0, r0, ops, ops', hn, hd, e1, e2, rfl, rfl⟩ := h
  have rs : Connection.Reachable P bp (s0.run bp ops).2 := ⟨server, v, d, n, s0, ops, e1, rfl⟩
  have rr : Connection.Reachable P bp' (r0.run bp' ops').2 := ⟨_, v, d, n, r0, ops', e2, rfl⟩
  obtain ⟨⟨kl, kr, l1, l2, m1, m2⟩, _⟩ := reachable_keys hP rs
  have hag : (s0.run bp ops).2.localSecrets .initial = (r0.run bp' ops').2.remoteSecrets .initial := by
    cases server with
    | false => exact (C30_agreement_kept P bp bp' v d n s0 r0 e1 e2 ops ops').1
    | true => exact (C30_agreement_kept P bp' bp v d n r0 s0 e2 e1 ops' ops).2
  have hdc : (s0.run bp ops).2.dcid = (d, n) := by
    rw [(run_ids bp ops s0).2]
    obtain ⟨_, _, _, _, _, _, rfl⟩ := new_ok' e1
    rfl
  obtain ⟨sc, sl, f1, f2, f3⟩ := hs
  refine ⟨⟨?_, ?_, ?_, ?_⟩, ⟨kl, l1, m1, hag ▸ m1⟩, (reachable_acks rs .initial).1, (reachable_acks rr .initial).2, rs, rr⟩
  · rw [hdc]; exact hn
  · rw [hdc]; exact hd
  · intro x hx; rw [f1] at hx; cases hx; exact f2
  · intro x hx; rw [f1] at hx; cases hx; exact f3

theorem run_secrets (bp : Profile) (ops : List ConnOp) (c : Connection) (sp : PnSpace) :
    (c.run bp ops).2.localSecrets sp = c.localSecrets sp ∧ (c.run bp ops).2.remoteSecrets sp = c.remoteSecrets sp := by
  obtain ⟨_, _, h1, h2⟩ := run_acks bp ops c sp
  unfold Connection.localSecrets Connection.remoteSecrets
  rw [h1, h2]
  exact ⟨rfl, rfl⟩

/-! ## C31 -/

/-- Everything outside the frames: whatever the frame parser makes of the serialized payload is what the decoded packet carries; header, token and
packet number come back as built, and exactly the packet's bytes are consumed. -/
theorem C31_envelope (P : Prims) (hP : PrimLaws P) (bp bp' : Profile) (cs cr : Connection) (h : Peers P bp bp' cs cr) (hs : HasScid cs)
    (fs fs' : List Frame) (token : Option Bytes) (payload : Bytes) (hpl : serializeFrames fs false = .ok payload) (hl : payload.length < 2 ^ 30)
    (ht : (token.getD []).length < 2 ^ 28) (hf : (deserializeFrames (makeResultStream payload)).1 = .ok fs')
    (p : PacketInitial) (hb : (PacketInitial.new bp fs token cs).1 = .ok p) (later : List ConnOp) :
    p.token = token.getD [] ∧ p.packetPayload = fs ∧
    ∃ out, p.serialize (cs.run bp later).2 = .ok out ∧
      ∀ s, decodeNextPacket bp' cr (makeResultStream out ++ s) = (.ok (.initial { p with packetPayload := fs' }), s) := by
  obtain ⟨hc, ⟨k, kl, m1, m2⟩, a1, a2, _, _⟩ := peers_facts hP h hs
  obtain ⟨out, o1, o2, o3, o4, o5, o6, o7⟩ := built_initial hP (c' := (cs.run bp later).2) ((run_secrets bp later cs .initial).1.trans m1) kl hc a1 hb hpl hl ht
  exact ⟨o6, o7, out, o1, decodeNext_initial_reads hP m2 kl.2.1 o5 o2 o3 (reconstruct_four (by omega) o4 a2) hf⟩

/-- C31. Every frame list, token and history, both directions: the packet is serialized, and the peer decodes those bytes, whatever follows
them, to the packet that was built: same header, token, packet number and frames. (Frames which the frame codec itself returns wrongly, STREAM
and CRYPTO at an offset, are excluded: C11, C12; for those see `C31_envelope`.).
Missing for the full statement: STREAM frames and CRYPTO frames at an offset, for which it is false (`C31_false`). -/
theorem C31_round_trip_partial (P : Prims) (hP : PrimLaws P) (bp bp' : Profile) (cs cr : Connection) (h : Peers P bp bp' cs cr) (hs : HasScid cs)
    (fs : List Frame) (hw : ∀ f ∈ fs, WellFormed f) (hp : ∀ f ∈ fs, Plain f) (token : Option Bytes)
    (hl : ∀ bs, serializeFrames fs false = .ok bs → bs.length < 2 ^ 30) (ht : (token.getD []).length < 2 ^ 28)
    (p : PacketInitial) (hb : (PacketInitial.new bp fs token cs).1 = .ok p) (later : List ConnOp) :
    p.token = token.getD [] ∧ p.packetPayload = fs ∧
    ∃ out, p.serialize (cs.run bp later).2 = .ok out ∧
      ∀ s, decodeNextPacket bp' cr (makeResultStream out ++ s) = (.ok (.initial p), s) := by
  obtain ⟨bs, e1, e2⟩ := C10_frames_round_trip fs false hw hp
  obtain ⟨h1, h2, out, h3, h4⟩ := C31_envelope P hP bp bp' cs cr h hs fs fs token bs e1 (hl bs e1) ht (by rw [e2]) p hb later
  refine ⟨h1, h2, out, h3, fun s => ?_⟩
  rw [h4 s]
  subst h2
  rfl

/-- C31. Building succeeds on every connection with a source id that has numbered fewer than 2^32 - 1 packets. -/
theorem C31_builds (P : Prims) (bp : Profile) (server : Bool) (v : Version) (d : U160) (n : Nat) (c0 : Connection)
    (h0 : Connection.new P server v d n = .ok c0) (ops : List ConnOp) (hn : ops.length + 1 < 2 ^ 32) (hs : HasScid (c0.run bp ops).2)
    (fs : List Frame) (token : Option Bytes) : ∃ p, (PacketInitial.new bp fs token (c0.run bp ops).2).1 = .ok p := by
  obtain ⟨sc, sl, h1, _, _⟩ := hs
  have hr : Connection.Reachable P bp (c0.run bp ops).2 := ⟨server, v, d, n, c0, ops, h0, rfl⟩
  have h2 : (c0.pnInfo .initial).nextPn = 0 := by obtain ⟨_, _, _, _, _, _, rfl⟩ := new_ok' h0; rfl
  have h3 := run_nextPn bp ops c0 .initial (by rw [h2]; simp; omega)
  rw [h2] at h3
  exact initialNew_some h1 (reachable_acks hr .initial).1 (by simp at h3; omega)

/-- What C31 asks of every frame list. -/
def C31For (P : Prims) : Prop :=
  ∀ (bp bp' : Profile) (cs cr : Connection) (_ : Peers P bp bp' cs cr) (_ : HasScid cs)
    (fs : List Frame) (_ : ∀ f ∈ fs, WellFormed f) (token : Option Bytes)
    (_ : ∀ bs, serializeFrames fs false = .ok bs → bs.length < 2 ^ 30) (_ : (token.getD []).length < 2 ^ 28)
    (p : PacketInitial) (_ : (PacketInitial.new bp fs token cs).1 = .ok p),
    ∃ out, p.serialize cs = .ok out ∧ ∀ s, decodeNextPacket bp' cr (makeResultStream out ++ s) = (.ok (.initial p), s)
/-- The claim, for all algorithms that obey the laws. -/
def C31Statement : Prop := ∀ P, PrimLaws P → C31For P

/-- A client and a server of the toy instance; the client has chosen its source id. -/
def exClient : Connection := match Connection.new Spec.toy false .v1 ⟨0, 0x0102030405060708⟩ 8 with
  | .ok c => c
  | _ => exConn
theorem exClient_new : Connection.new Spec.toy false .v1 ⟨0, 0x0102030405060708⟩ 8 = .ok exClient := by
  unfold exClient
  cases h : Connection.new Spec.toy false .v1 ⟨0, 0x0102030405060708⟩ 8 with
  | ok c => rfl
  | err e => exact absurd (show _ = true from congrArg Out.isErr h) (by decide +kernel)
  | panic e => exact absurd (show _ = true from congrArg Out.isPanic h) (by decide +kernel)
def exOps : List ConnOp := [.setScid ⟨0, 0x1122⟩ 2, .nextPn .initial, .buildInitial [.ping] none]
theorem exPeers : Peers Spec.toy .debug .debug (exClient.run .debug exOps).2 exConn :=
  ⟨false, .v1, ⟨0, 0x0102030405060708⟩, 8, exClient, exConn, exOps, [], by decide, by decide +kernel, exClient_new, exConn_new, rfl, rfl⟩
theorem exScid : HasScid (exClient.run .debug exOps).2 := ⟨⟨0, 0x1122⟩, 2, by decide +kernel, by decide, by decide +kernel⟩

/-- Outcome of sending one Initial packet from the client to the server. -/
def exSend (fs : List Frame) : Out (Bytes × Packet) := do
  let p ← (PacketInitial.new .debug fs (some [9, 9, 9]) (exClient.run .debug exOps).2).1
  let out ← p.serialize (exClient.run .debug exOps).2
  let q ← (decodeNextPacket .debug exConn (makeResultStream out)).1
  pure (out, q)

/-- Non-trivial instance, computed: third packet of the client, with token, CRYPTO, ACK and PADDING. -/
example : (match exSend [.crypto ⟨0, 3, [1, 2, 3]⟩, .ack ⟨7, 0, 1, 0, [⟨2, 2⟩], none⟩, .padding] with
    | .ok (out, .initial q) => decide (out.length = 56 ∧ q.packetNumber = 3 ∧ q.token = [9, 9, 9] ∧
        q.packetPayload = [.crypto ⟨0, 3, [1, 2, 3]⟩, .ack ⟨7, 0, 1, 0, [⟨2, 2⟩], none⟩, .padding])
    | _ => false) = true := by decide +kernel

/-- The excluded case, computed: CRYPTO at offset 1 comes back with other data. -/
theorem C31_false : ¬ C31Statement := by
  intro h
  have hb := C31_builds Spec.toy .debug false .v1 ⟨0, 0x0102030405060708⟩ 8 exClient exClient_new exOps (by decide) exScid
    [.crypto ⟨1, 1, [5]⟩, .ping] (some [9, 9, 9])
  obtain ⟨p, hp⟩ := hb
  obtain ⟨out, h1, h2⟩ := h Spec.toy Spec.toy_laws .debug .debug _ _ exPeers exScid [.crypto ⟨1, 1, [5]⟩, .ping] (by decide +kernel) (some [9, 9, 9])
    (by intro bs hbs; have : (match serializeFrames [.crypto ⟨1, 1, [5]⟩, .ping] false with | .ok b => decide (b.length < 2 ^ 30) | _ => true) = true := by decide +kernel
        rw [hbs] at this; exact of_decide_eq_true this) (by decide) p hp
  have h3 : exSend [.crypto ⟨1, 1, [5]⟩, .ping] = .ok (out, .initial p) := by
    unfold exSend
    rw [hp, Out.ok_bind, h1, Out.ok_bind]
    have := h2 []
    rw [List.append_nil] at this
    rw [this]
    rfl
  have h4 : p.packetPayload = [.crypto ⟨1, 1, [5]⟩, .ping] := (initialNew_ok hp).2.2.2.2
  have h5 : (match exSend [.crypto ⟨1, 1, [5]⟩, .ping] with
    | .ok (_, .initial q) => decide (q.packetPayload = [.crypto ⟨1, 1, [5]⟩, .ping])
    | _ => false) = false := by decide +kernel
  rw [h3] at h5
  exact absurd h4 (of_decide_eq_false h5)

/-! ## C36 -/

/-- One Initial packet `p` of this sender and its bytes `out`: built at some point of the sender's history, serialized at some later point. -/
def SentInitial (bp : Profile) (cs0 : Connection) (out : Bytes) (p : PacketInitial) : Prop :=
  ∃ ops later fs token, HasScid (cs0.run bp ops).2 ∧ (∀ f ∈ fs, WellFormed f) ∧ (∀ f ∈ fs, Plain f) ∧
    (∀ bs, serializeFrames fs false = .ok bs → bs.length < 2 ^ 30) ∧ (token.getD []).length < 2 ^ 28 ∧
    (PacketInitial.new bp fs token (cs0.run bp ops).2).1 = .ok p ∧ p.serialize (cs0.run bp (ops ++ later)).2 = .ok out

/-- C36. Any number of Initial packets one after the other decode to exactly those packets, in order, and nothing is left.
Missing for the full statement: STREAM frames and CRYPTO frames at an offset, for which it is false (`C36_false`). -/
theorem C36_coalesced_partial (P : Prims) (hP : PrimLaws P) (bp bp' : Profile) (server : Bool) (v : Version) (d : U160) (n : Nat) (hn : n ≤ 20)
    (hd : cidVal d < 256 ^ n) (cs0 cr0 : Connection) (h1 : Connection.new P server v d n = .ok cs0) (h2 : Connection.new P (!server) v d n = .ok cr0)
    (ops' : List ConnOp) (l : List (Bytes × PacketInitial)) (hl : ∀ x ∈ l, SentInitial bp cs0 x.1 x.2) :
    decodePackets bp' (cr0.run bp' ops').2 (makeResultStream (l.map Prod.fst).flatten) = (.ok (l.map fun x => .initial x.2), []) := by
  have := decodePackets_flatten (bp := bp') (c := (cr0.run bp' ops').2) (l := l.map fun x => (x.1, Packet.initial x.2)) (by
    intro x hx
    obtain ⟨y, hy, rfl⟩ := List.mem_map.mp hx
    obtain ⟨ops, later, fs, token, g1, g2, g3, g4, g5, g6, g7⟩ := hl y hy
    obtain ⟨_, _, out, o1, o2⟩ := C31_round_trip_partial P hP bp bp' (cs0.run bp ops).2 (cr0.run bp' ops').2
      ⟨server, v, d, n, cs0, cr0, ops, ops', hn, hd, h1, h2, rfl, rfl⟩ g1 fs g2 g3 token g4 g5 y.2 g6 later
    rw [← run_append, g7] at o1
    cases o1
    exact o2)
  simpa [List.map_map, Function.comp_def] using this

/-- C36. The same for any packets that decode on their own: what each yields does not depend on its neighbours. -/
theorem C36_any_packets (bp : Profile) (c : Connection) (l : List (Bytes × Packet))
    (h : ∀ x ∈ l, ∀ s, decodeNextPacket bp c (makeResultStream x.1 ++ s) = (.ok x.2, s)) :
    decodePackets bp c (makeResultStream (l.map Prod.fst).flatten) = (.ok (l.map Prod.snd), []) := decodePackets_flatten h

/-- Non-trivial instance, computed: three packets of one sender in one datagram. -/
example :
    (match (do
        let r1 := PacketInitial.new .debug [.ping] none (exClient.run .debug exOps).2
        let p1 ← r1.1
        let r2 := PacketInitial.new .debug [.crypto ⟨0, 1, [7]⟩, .padding] (some [1]) r1.2
        let p2 ← r2.1
        let r3 := PacketInitial.new .debug [.padding] none r2.2
        let p3 ← r3.1
        let o1 ← p1.serialize r3.2
        let o2 ← p2.serialize r3.2
        let o3 ← p3.serialize r3.2
        let ps ← (decodePackets .debug exConn (makeResultStream (o1 ++ o2 ++ o3))).1
        pure (decide (ps = [.initial p1, .initial p2, .initial p3] ∧ [p1.packetNumber, p2.packetNumber, p3.packetNumber] = [3, 4, 5])) : Out Bool) with
    | .ok b => b
    | _ => false) = true := by decide +kernel

/-! ## C37 -/

/-- RFC 9000 sections 17.2.2 and 17.2.4, as far as delimiting goes: long header, token with its length (Initial only), Length, and exactly Length
further bytes. -/
def Delimited (kind : PacketType) (h : LongPacketHeader) (token : Bytes) (bs : Bytes) : Prop :=
  ∃ hb tl lb body, LongFields h hb ∧ packetKind h.headerByte h.version = kind ∧
    (if kind = .initial then IsVarInt tl token.length else tl ++ token = []) ∧ IsVarInt lb body.length ∧ bs = hb ++ tl ++ token ++ lb ++ body

/-- C37. A serialized Initial packet, any header with ids of at most 20 bytes, any keys: Length is the number of bytes that follow. -/
theorem C37_initial_length (P : Prims) (hP : PrimLaws P) (c : Connection) (k : Keys) (hk : c.localSecrets .initial = .ok (secretsOf P k)) (hiv : k.iv.length = 12)
    (p : PacketInitial) (hh : LongOk p.header) (hkind : packetKind p.header.headerByte p.header.version = .initial)
    (hn : p.header.headerByte.toNat % 4 + 1 = p.packetNumberBytes.length)
    (hl : ∀ bs, serializeFrames p.packetPayload false = .ok bs → bs.length < 2 ^ 63) (ht : p.token.length < 2 ^ 64)
    (out : Bytes) (h : p.serialize c = .ok out) :
    ∃ b, Delimited .initial { p.header with headerByte := b } p.token out := by
  obtain ⟨h0, hvn, hb, hd, fd, hs, fs⟩ := hh
  have hpl : ∃ payload, serializeFrames p.packetPayload false = .ok payload := by
    rw [initial_serialize_eq] at h
    obtain ⟨pl, e, _⟩ := Out.bind_eq_ok h
    exact ⟨pl, e⟩
  obtain ⟨payload, hpl⟩ := hpl
  have := hl payload hpl
  obtain ⟨hb, tl, lb, w1, w2, w3, w4, w5, w6⟩ := initial_serialize_wire hk hiv ⟨fun e => h0 (BitVec.eq_of_toNat_eq e), hvn, hd, fd, hs, fs⟩ hkind hn hpl
    (by omega) ht h
  obtain ⟨m, ct, tag, rfl, f1, f2, f3, f4, f5⟩ := protected_facts hP hiv w6
  refine ⟨p.header.headerByte ^^^ (m.m0 &&& 0x0f), _ :: hb, tl, lb, p.packetNumberBytes.zipWith (· ^^^ ·) (maskList m) ++ ct ++ tag, unprot_fields w1,
    (kind_xor _ _ _).trans w2, w4, ?_, by simp⟩
  have : (p.packetNumberBytes.zipWith (· ^^^ ·) (maskList m) ++ ct ++ tag).length = p.packetNumberBytes.length + payload.length + 16 := by
    have : (maskList m).length = 4 := rfl
    simp only [List.length_append, List.length_zipWith]
    omega
  rw [this]
  exact w5
/-- C37 for Handshake packets. -/
theorem C37_handshake_length (P : Prims) (hP : PrimLaws P) (c : Connection) (k : Keys) (hk : c.localSecrets .handshake = .ok (secretsOf P k)) (hiv : k.iv.length = 12)
    (p : PacketHandshake) (hh : LongOk p.header) (hkind : packetKind p.header.headerByte p.header.version = .handshake)
    (hn : p.header.headerByte.toNat % 4 + 1 = p.packetNumberBytes.length)
    (hl : ∀ bs, serializeFrames p.packetPayload false = .ok bs → bs.length < 2 ^ 63)
    (out : Bytes) (h : p.serialize c = .ok out) :
    ∃ b, Delimited .handshake { p.header with headerByte := b } [] out := by
  obtain ⟨h0, hvn, hb, hd, fd, hs, fs⟩ := hh
  have hpl : ∃ payload, serializeFrames p.packetPayload false = .ok payload := by
    rw [handshake_serialize_eq] at h
    obtain ⟨pl, e, _⟩ := Out.bind_eq_ok h
    exact ⟨pl, e⟩
  obtain ⟨payload, hpl⟩ := hpl
  have := hl payload hpl
  obtain ⟨hb, lb, w1, w2, w3, w5, w6⟩ := handshake_serialize_wire hk hiv ⟨fun e => h0 (BitVec.eq_of_toNat_eq e), hvn, hd, fd, hs, fs⟩ hkind hn hpl
    (by omega) h
  obtain ⟨m, ct, tag, rfl, f1, f2, f3, f4, f5⟩ := protected_facts hP hiv w6
  refine ⟨p.header.headerByte ^^^ (m.m0 &&& 0x0f), _ :: hb, [], lb, p.packetNumberBytes.zipWith (· ^^^ ·) (maskList m) ++ ct ++ tag, unprot_fields w1,
    (kind_xor _ _ _).trans w2, rfl, ?_, by simp⟩
  have : (p.packetNumberBytes.zipWith (· ^^^ ·) (maskList m) ++ ct ++ tag).length = p.packetNumberBytes.length + payload.length + 16 := by
    have : (maskList m).length = 4 := rfl
    simp only [List.length_append, List.length_zipWith]
    omega
  rw [this]
  exact w5

/-- A reader for what `Delimited` describes. -/
private def skipPacket (initial : Bool) : Rd Unit := do
  let _ ← nextHeaderFromStream
  if initial then
    let t ← varIntWithBytesFromStream
    let _ ← varBytesFromStream t.1.toNat
    let l ← varIntWithBytesFromStream
    let _ ← varBytesFromStream l.1.toNat
    pure ()
  else
    let l ← varIntWithBytesFromStream
    let _ ← varBytesFromStream l.1.toNat
    pure ()
private theorem skip_reads {kind : PacketType} (hk : kind ≠ .oneRtt) {h : LongPacketHeader} {token bs : Bytes} (hd : Delimited kind h token bs) :
    Reads (skipPacket (decide (kind = .initial))) bs () := by
  obtain ⟨hb, tl, lb, body, w1, w2, w3, w4, rfl⟩ := hd
  have lL := w4.lt
  have hh : Reads nextHeaderFromStream hb (.long { h with isProtected := protectable (packetKind h.headerByte h.version) }) := by
    intro s
    exact nextHeader_long_iff.mpr ⟨hb, rfl, w1, kind_long (by rw [w2]; exact hk), rfl⟩
  have hL : Reads (do
      let l ← varIntWithBytesFromStream
      let _ ← varBytesFromStream l.1.toNat
      pure () : Rd Unit) (lb ++ body) () := by
    refine Reads.bind' (varIntWithBytes_reads (v := BitVec.ofNat 64 body.length) (by rw [ofNat64_toNat (by omega)]; exact w4)) ?_ rfl
    refine Reads.bind' (b1 := body) (b2 := []) (varBytes_reads' (by rw [ofNat64_toNat (by omega)])) (fun s => rfl) (by simp)
  unfold skipPacket
  by_cases hi : kind = .initial
  · rw [if_pos hi] at w3
    have lt := w3.lt
    refine Reads.bind' (b2 := tl ++ token ++ lb ++ body) hh ?_ (by simp)
    rw [if_pos (by simpa using hi)]
    refine Reads.bind' (b2 := token ++ lb ++ body) (varIntWithBytes_reads (v := BitVec.ofNat 64 token.length) (by rw [ofNat64_toNat (by omega)]; exact w3)) ?_ (by simp)
    refine Reads.bind' (b1 := token) (b2 := lb ++ body) (varBytes_reads' (by rw [ofNat64_toNat (by omega)])) hL (by simp)
  · rw [if_neg hi] at w3
    refine Reads.bind' (b2 := lb ++ body) hh ?_ (by rw [List.append_assoc hb tl token, w3]; simp)
    rw [if_neg (by simpa using hi)]
    exact hL

/-- C37. Packets are self-delimiting: at any position of any byte string at most one packet of a kind starts, so where it ends is determined. -/
theorem C37_self_delimiting (kind : PacketType) (hk : kind ≠ .oneRtt) (h h' : LongPacketHeader) (token token' a b x y : Bytes) (ha : Delimited kind h token a)
    (hb : Delimited kind h' token' b) (e : a ++ x = b ++ y) : a = b ∧ x = y := by
  have h1 := skip_reads hk ha (makeResultStream x)
  have h2 := skip_reads hk hb (makeResultStream y)
  rw [← makeResultStream_append, e, makeResultStream_append, h2] at h1
  have : y.length = x.length := by
    have := congrArg (fun r : Out Unit × Stream => r.2.length) h1
    simpa [makeResultStream] using this
  exact List.append_inj' e this.symm

/-! ## C52 -/

/-- C52. A built Initial packet: version, ids and lengths of the connection, fixed and type bits, packet number length field. (For the
number itself see `C52_number`.) -/
theorem C52_initial (bp : Profile) (c : Connection) (fs : List Frame) (token : Option Bytes) (p : PacketInitial) (hd : c.dcid.2 ≤ 20)
    (hs : ∀ x, c.scid = some x → x.2 ≤ 20) (h : (PacketInitial.new bp fs token c).1 = .ok p) :
    p.header.version = (match c.version with | .v1 => 1) ∧
    p.header.destinationConnectionId = c.dcid.1 ∧ p.header.destinationConnectionIdLength.toNat = c.dcid.2 ∧
    c.scid = some (p.header.sourceConnectionId, p.header.sourceConnectionIdLength.toNat) ∧
    packetKind p.header.headerByte p.header.version = .initial ∧ p.header.headerByte.toNat / 64 = 3 ∧ p.header.headerByte.toNat / 4 % 4 = 0 ∧
    p.header.headerByte.toNat % 4 + 1 = p.packetNumberBytes.length ∧ p.header.isProtected = false ∧
    p.token = token.getD [] ∧ p.packetPayload = fs := by
  obtain ⟨sc, sl, e1, e2, e3, e4, e5, e6, e7, _, _⟩ := initialNew_facts h
  have hver : p.header.version = c.version.getVersionFieldVal := by rw [e5]
  obtain ⟨k1, k2⟩ := initial_kind (v := p.header.version) _ ⟨e2, e3⟩ e4 (by rw [hver]; exact version_nonzero _)
  have m : ∀ n, n ≤ 20 → (BitVec.ofNat 8 n).toNat = n := by
    intro n hn; rw [BitVec.toNat_ofNat]; exact Nat.mod_eq_of_lt (by omega)
  refine ⟨by rw [hver]; cases c.version; rfl, by rw [e5], ?_, ?_, k1, by omega, by omega, k2, by rw [e5], e6, e7⟩
  · rw [e5]; exact m _ hd
  · rw [e5, e1]; dsimp only; rw [m _ (hs _ e1)]
/-- C52 for Handshake packets. -/
theorem C52_handshake (bp : Profile) (c : Connection) (fs : List Frame) (p : PacketHandshake) (hd : c.dcid.2 ≤ 20)
    (hs : ∀ x, c.scid = some x → x.2 ≤ 20) (h : (PacketHandshake.new bp fs c).1 = .ok p) :
    p.header.version = (match c.version with | .v1 => 1) ∧
    p.header.destinationConnectionId = c.dcid.1 ∧ p.header.destinationConnectionIdLength.toNat = c.dcid.2 ∧
    c.scid = some (p.header.sourceConnectionId, p.header.sourceConnectionIdLength.toNat) ∧
    packetKind p.header.headerByte p.header.version = .handshake ∧ p.header.headerByte.toNat / 64 = 3 ∧ p.header.headerByte.toNat / 4 % 4 = 0 ∧
    p.header.headerByte.toNat % 4 + 1 = p.packetNumberBytes.length ∧ p.header.isProtected = false ∧ p.packetPayload = fs := by
  obtain ⟨sc, sl, e1, e2, e3, e4, e5, e7, _, _⟩ := handshakeNew_facts h
  have hver : p.header.version = c.version.getVersionFieldVal := by rw [e5]
  obtain ⟨k1, k2⟩ := handshake_kind (v := p.header.version) _ ⟨e2, e3⟩ e4 (by rw [hver]; exact version_nonzero _)
  have m : ∀ n, n ≤ 20 → (BitVec.ofNat 8 n).toNat = n := by
    intro n hn; rw [BitVec.toNat_ofNat]; exact Nat.mod_eq_of_lt (by omega)
  refine ⟨by rw [hver]; cases c.version; rfl, by rw [e5], ?_, ?_, k1, by omega, by omega, k2, by rw [e5], e7⟩
  · rw [e5]; exact m _ hd
  · rw [e5, e1]; dsimp only; rw [m _ (hs _ e1)]
/-- C52. The number of a packet built is the next one of its space, and its bytes are the last bytes of the number, one to four. -/
theorem C52_number (bp : Profile) (c : Connection) (fs : List Frame) (token : Option Bytes) :
    (∀ p, (PacketInitial.new bp fs token c).1 = .ok p → p.packetNumber = (c.pnInfo .initial).nextPn + 1 ∧
      1 ≤ p.packetNumberBytes.length ∧ p.packetNumberBytes.length ≤ 4 ∧
      beNat p.packetNumberBytes = p.packetNumber.toNat % 256 ^ p.packetNumberBytes.length) ∧
    (∀ p, (PacketHandshake.new bp fs c).1 = .ok p → p.packetNumber = (c.pnInfo .handshake).nextPn + 1 ∧
      1 ≤ p.packetNumberBytes.length ∧ p.packetNumberBytes.length ≤ 4 ∧
      beNat p.packetNumberBytes = p.packetNumber.toNat % 256 ^ p.packetNumberBytes.length) := by
  have t : ∀ {pn : U64} {la : Option U64} {b : Bytes}, truncatePn pn la = .ok b → beNat b = pn.toNat % 256 ^ b.length := by
    intro pn la b h
    cases la with
    | none =>
      obtain ⟨h1, h2, h3⟩ := truncatePn_none_ok h
      rw [h2, h3, Nat.mod_eq_of_lt (by omega)]
    | some x =>
      by_cases hx : x.toNat < pn.toNat
      · rw [truncatePn_some pn x hx] at h
        cases h
        rw [beNat_toBeBytes, toBeBytes_length]
      · have := truncatePn_some_err pn x (by omega)
        rw [h] at this; cases this
  refine ⟨fun p h => ?_, fun p h => ?_⟩
  · obtain ⟨_, _, _, e1, e2, _, _, _, _, e3, e4⟩ := initialNew_facts h
    exact ⟨e3, e1, e2, t e4⟩
  · obtain ⟨_, _, _, e1, e2, _, _, _, e3, e4⟩ := handshakeNew_facts h
    exact ⟨e3, e1, e2, t e4⟩
/-- C52. Without a source id nothing is built. -/
theorem C52_no_source_id (bp : Profile) (c : Connection) (fs : List Frame) (token : Option Bytes) (h : c.scid = none) (p : PacketInitial) (q : PacketHandshake) :
    (PacketInitial.new bp fs token c).1 ≠ .ok p ∧ (PacketHandshake.new bp fs c).1 ≠ .ok q := by
  constructor
  · intro e; obtain ⟨sc, sl, e1, _⟩ := initialNew_facts e; rw [h] at e1; cases e1
  · intro e; obtain ⟨sc, sl, e1, _⟩ := handshakeNew_facts e; rw [h] at e1; cases e1
/-- Non-trivial instance, also with an acknowledgement recorded, so that the packet number takes one byte. -/
example : (match (PacketHandshake.new .debug [.ping] { (exClient.run .debug exOps).2 with handshakePnInfo := { PnInfo.new with nextPn := 0x1233, largestLocalAck := some 0x1230 } }).1 with
    | .ok p => decide (p.header.headerByte = 0xe0 ∧ p.packetNumber = 0x1234 ∧ p.packetNumberBytes = [0x34] ∧ p.header.sourceConnectionIdLength = 2)
    | _ => false) = true := by decide +kernel

end QuicSea
