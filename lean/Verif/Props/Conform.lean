import Verif.Props.Packet
import Verif.Props.Decode
/-
C57, C71: the bytes a connection sends are RFC 9000 and RFC 9001 packets; decoding does not depend on the receiver's history.
-/
namespace QuicSea
open Spec

/-! ## C57 -/

/-- C57. Every Initial packet built at any point of the history of any connection and serialized at any later point: the bytes are an Initial
packet of RFC 9000 section 17.2.2, protected as in RFC 9001 section 5 under the Initial keys that the destination id of the client gives for the
sending side, and the payload is the RFC 9000 encoding of the frames. -/
theorem C57_initial (P : Prims) (hP : PrimLaws P) (bp : Profile) (server : Bool) (v : Version) (d : U160) (n : Nat) (hn : n ≤ 20)
    (hd : cidVal d < 256 ^ n) (c0 : Connection) (h0 : Connection.new P server v d n = .ok c0) (ops later : List ConnOp)
    (hs : HasScid (c0.run bp ops).2) (fs : List Frame) (hw : ∀ f ∈ fs, WellFormed f) (token : Option Bytes)
    (hl : ∀ bs, serializeFrames fs false = .ok bs → bs.length < 2 ^ 30) (ht : (token.getD []).length < 2 ^ 28)
    (p : PacketInitial) (hb : (PacketInitial.new bp fs token (c0.run bp ops).2).1 = .ok p) :
    ∃ cid k payload out, cid.length = n ∧ beNat cid = cidVal d ∧ InitialKeys P server cid k ∧ FramesWire fs payload ∧
      p.serialize (c0.run bp (ops ++ later)).2 = .ok out ∧
      InitialWire P k p.header (token.getD []) p.packetNumberBytes p.packetNumber.toNat payload out ∧
      beNat p.packetNumberBytes = p.packetNumber.toNat := by
  have rs : Connection.Reachable P bp (c0.run bp ops).2 := ⟨server, v, d, n, c0, ops, h0, rfl⟩
  obtain ⟨cid, kl, kr, e1, e2, e3, hc0⟩ := new_ok' h0
  obtain ⟨l1, l2⟩ := toVarBytes_ok e1
  obtain ⟨payload, hpl⟩ := serialize_ok false hw
  have hk : (c0.run bp (ops ++ later)).2.localSecrets .initial = .ok (secretsOf P kl) := by
    rw [(run_secrets bp _ c0 .initial).1, hc0]; rfl
  have hdc : (c0.run bp ops).2.dcid = (d, n) := by rw [(run_ids bp ops c0).2, hc0]
  obtain ⟨sc, sl, f1, f2, f3⟩ := hs
  have hids : IdsOk (c0.run bp ops).2 := by
    refine ⟨by rw [hdc]; exact hn, by rw [hdc]; exact hd, ?_, ?_⟩
    · intro x hx; rw [f1] at hx; cases hx; exact f2
    · intro x hx; rw [f1] at hx; cases hx; exact f3
  obtain ⟨out, o1, o2, _, o4, _, o6, _⟩ := built_initial hP hk (initialKeys_lens hP e2) hids (reachable_acks rs .initial).1 hb hpl (hl _ hpl) ht
  rw [o6] at o2
  exact ⟨cid, kl, payload, out, l1, by rw [l2, Nat.mod_eq_of_lt hd], e2, C16_payload_layout fs false payload (fun f hf => (hw f hf).2) hpl, o1, o2, o4⟩

/-- C57 for any Initial packet value, with a packet number of one to four bytes, whatever keys are installed: it is serialized exactly when
the packet number and payload together have at least four bytes (RFC 9001 section 5.4.2 asks the sender for that), and then gives an RFC packet. -/
theorem C57_initial_any (P : Prims) (hP : PrimLaws P) (c : Connection) (k : Keys) (hkl : KeyLens k) (hk : c.localSecrets .initial = .ok (secretsOf P k))
    (p : PacketInitial) (hh : LongOk p.header) (hpr : p.header.isProtected = false) (hkind : packetKind p.header.headerByte p.header.version = .initial)
    (hn : p.header.headerByte.toNat % 4 + 1 = p.packetNumberBytes.length) (hw : ∀ f ∈ p.packetPayload, WellFormed f)
    (payload : Bytes) (hpl : serializeFrames p.packetPayload false = .ok payload) (hl : payload.length < 2 ^ 30) (ht : p.token.length < 2 ^ 28) :
    FramesWire p.packetPayload payload ∧ ((∃ out, p.serialize c = .ok out) ↔ 4 ≤ p.packetNumberBytes.length + payload.length) ∧
      ∀ out, p.serialize c = .ok out → InitialWire P k p.header p.token p.packetNumberBytes p.packetNumber.toNat payload out := by
  obtain ⟨g0, gv, _, gd, gdf, gs, gsf⟩ := hh
  have hok : HeaderOk p.header := ⟨fun e => g0 (BitVec.eq_of_toNat_eq e), gv, gd, gdf, gs, gsf⟩
  have hwire : ∀ out, p.serialize c = .ok out → InitialWire P k p.header p.token p.packetNumberBytes p.packetNumber.toNat payload out :=
    fun out ho => initial_serialize_wire hk hkl.2.1 hok hkind hn hpl (by omega) (by omega) ho
  refine ⟨C16_payload_layout _ false payload (fun f hf => (hw f hf).2) hpl, ⟨?_, initial_serialize_total hP hk hkl hok hpr hn hpl hl ht⟩, hwire⟩
  rintro ⟨out, ho⟩
  obtain ⟨hb, tl, lb, _, _, _, _, _, w6⟩ := hwire out ho
  obtain ⟨_, ct, _, _, f1, _, f3, _⟩ := protected_facts hP hkl.2.1 w6
  omega

/-- C57 for Handshake packets, whatever keys are installed. -/
theorem C57_handshake_any (P : Prims) (hP : PrimLaws P) (c : Connection) (k : Keys) (hkl : KeyLens k)
    (hk : c.localSecrets .handshake = .ok (secretsOf P k))
    (p : PacketHandshake) (hh : LongOk p.header) (hpr : p.header.isProtected = false) (hkind : packetKind p.header.headerByte p.header.version = .handshake)
    (hn : p.header.headerByte.toNat % 4 + 1 = p.packetNumberBytes.length) (hw : ∀ f ∈ p.packetPayload, WellFormed f)
    (payload : Bytes) (hpl : serializeFrames p.packetPayload false = .ok payload) (hl : payload.length < 2 ^ 30) :
    FramesWire p.packetPayload payload ∧ ((∃ out, p.serialize c = .ok out) ↔ 4 ≤ p.packetNumberBytes.length + payload.length) ∧
      ∀ out, p.serialize c = .ok out → HandshakeWire P k p.header p.packetNumberBytes p.packetNumber.toNat payload out := by
  obtain ⟨g0, gv, _, gd, gdf, gs, gsf⟩ := hh
  have hok : HeaderOk p.header := ⟨fun e => g0 (BitVec.eq_of_toNat_eq e), gv, gd, gdf, gs, gsf⟩
  have hwire : ∀ out, p.serialize c = .ok out → HandshakeWire P k p.header p.packetNumberBytes p.packetNumber.toNat payload out :=
    fun out ho => handshake_serialize_wire hk hkl.2.1 hok hkind hn hpl (by omega) ho
  refine ⟨C16_payload_layout _ false payload (fun f hf => (hw f hf).2) hpl, ⟨?_, handshake_serialize_total hP hk hkl hok hpr hn hpl hl⟩, hwire⟩
  rintro ⟨out, ho⟩
  obtain ⟨hb, lb, _, _, _, _, w6⟩ := hwire out ho
  obtain ⟨_, ct, _, _, f1, _, f3, _⟩ := protected_facts hP hkl.2.1 w6
  omega

/-- Non-trivial instance of the hypotheses of `C57_initial`: third packet of a client with a token, CRYPTO and ACK. -/
example : HasScid (exClient.run .debug exOps).2 ∧
    (∀ f ∈ [Frame.crypto ⟨0, 3, [1, 2, 3]⟩, .ack ⟨7, 0, 1, 0, [⟨2, 2⟩], none⟩, .padding], WellFormed f) ∧
    ((PacketInitial.new .debug [.crypto ⟨0, 3, [1, 2, 3]⟩, .ack ⟨7, 0, 1, 0, [⟨2, 2⟩], none⟩, .padding] (some [9, 9]) (exClient.run .debug exOps).2).1).isOk = true :=
  ⟨exScid, by decide +kernel, by decide +kernel⟩

/-! ## C71 -/

/-- What decoding reads of a connection: the receive keys and the largest acknowledged numbers. -/
theorem decodeNext_congr (bp : Profile) (c c' : Connection) (h1 : ∀ sp, c.remoteSecrets sp = c'.remoteSecrets sp)
    (h2 : ∀ sp, (c.pnInfo sp).largestRemoteAck = (c'.pnInfo sp).largestRemoteAck) : decodeNextPacket bp c = decodeNextPacket bp c' := by
  have e1 : c.getRemoteHpMask = c'.getRemoteHpMask := by funext sp; simp only [Connection.getRemoteHpMask, h1]
  have e2 : c.decryptRemotePayload = c'.decryptRemotePayload := by funext sp x y z; simp only [Connection.decryptRemotePayload, h1]
  have e3 : Connection.reconstructRemotePn bp c = Connection.reconstructRemotePn bp c' := by
    funext sp l; simp only [Connection.reconstructRemotePn, h2]
  simp only [decodeNextPacket, PacketHandshake.fromStream, PacketInitial.fromStream, PacketZeroRtt.fromStream, PacketOneRtt.fromStream, e1, e2, e3]
theorem decodePackets_congr (bp : Profile) (c c' : Connection) (h : decodeNextPacket bp c = decodeNextPacket bp c') :
    decodePackets bp c = decodePackets bp c' := by
  have : ∀ n, decodePacketsLoop bp c n = decodePacketsLoop bp c' n := by
    intro n
    induction n with
    | zero => funext s; cases s <;> rfl
    | succ n ih => funext s; cases s <;> simp only [decodePacketsLoop, h, ih]
  funext s
  simp only [decodePackets, this]

/-- C71. Whatever the receiver has done since, in whatever order, every datagram decodes as it would have before: so packets can be decoded in
any order, after any losses. -/
theorem C71_history_independent (bp bp' : Profile) (c : Connection) (ops : List ConnOp) (s : Stream) :
    decodePackets bp' (c.run bp ops).2 s = decodePackets bp' c s := by
  rw [decodePackets_congr bp' _ c (decodeNext_congr bp' _ c (fun sp => (run_secrets bp ops c sp).2) (fun sp => (run_acks bp ops c sp).2.1))]
/-- C71. What is decoded from a datagram is a matter of the side, the version and the client's destination id alone. -/
theorem C71_receivers_agree (P : Prims) (bp1 bp2 bp' : Profile) (server : Bool) (v : Version) (d : U160) (n : Nat) (c1 c2 : Connection)
    (h1 : Connection.new P server v d n = .ok c1) (h2 : Connection.new P server v d n = .ok c2) (ops1 ops2 : List ConnOp) (s : Stream) :
    decodePackets bp' (c1.run bp1 ops1).2 s = decodePackets bp' (c2.run bp2 ops2).2 s := by
  rw [h1] at h2
  cases h2
  rw [C71_history_independent bp1, C71_history_independent bp2]
/-- Non-trivial instance: the server has numbered packets of its own, and still decodes. -/
example : (decodePackets .debug (exConn.run .debug [.setScid ⟨0, 7⟩ 8, .nextPn .initial, .buildInitial [.ping] none]).2 (makeResultStream (exOut 4))).1.isOk = true := by
  decide +kernel

end QuicSea
