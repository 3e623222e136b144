import Verif.Proofs.Wire
/-
Packets built for a connection.
-/
namespace QuicSea
open Spec

theorem getNextPn_frame (bp : Profile) (c : Connection) (sp : PnSpace) :
    ((c.getNextPn bp sp).2).version = c.version ∧ ((c.getNextPn bp sp).2).dcid = c.dcid ∧ ((c.getNextPn bp sp).2).scid = c.scid := by
  unfold Connection.getNextPn
  dsimp only
  split
  · cases sp <;> exact ⟨rfl, rfl, rfl⟩
  · exact ⟨rfl, rfl, rfl⟩
  · exact ⟨rfl, rfl, rfl⟩
theorem step_ids (bp : Profile) (c : Connection) (op : ConnOp) : ((c.step bp op).2).version = c.version ∧ ((c.step bp op).2).dcid = c.dcid := by
  cases op with
  | setScid => exact ⟨rfl, rfl⟩
  | nextPn sp => exact ⟨(getNextPn_frame bp c sp).1, (getNextPn_frame bp c sp).2.1⟩
  | buildInitial p t =>
    show ((PacketInitial.new bp p t c).2).version = _ ∧ ((PacketInitial.new bp p t c).2).dcid = _
    rw [initialNew_conn]; exact ⟨(getNextPn_frame bp c _).1, (getNextPn_frame bp c _).2.1⟩
  | buildHandshake p =>
    show ((PacketHandshake.new bp p c).2).version = _ ∧ ((PacketHandshake.new bp p c).2).dcid = _
    rw [handshakeNew_conn]; exact ⟨(getNextPn_frame bp c _).1, (getNextPn_frame bp c _).2.1⟩
theorem run_ids (bp : Profile) (ops : List ConnOp) (c : Connection) : ((c.run bp ops).2).version = c.version ∧ ((c.run bp ops).2).dcid = c.dcid := by
  induction ops generalizing c with
  | nil => exact ⟨rfl, rfl⟩
  | cons op ops ih => exact ⟨(ih _).1.trans (step_ids bp c op).1, (ih _).2.trans (step_ids bp c op).2⟩

theorem run_append (bp : Profile) (a b : List ConnOp) (c : Connection) : (c.run bp (a ++ b)).2 = ((c.run bp a).2.run bp b).2 := by
  induction a generalizing c with
  | nil => rfl
  | cons op a ih => exact ih _

theorem fromConnection_ok {c : Connection} {b : U8} {h : LongPacketHeader} (hc : LongPacketHeader.fromConnection c b = .ok h) :
    ∃ sc sl, c.scid = some (sc, sl) ∧
      h = { headerByte := b, version := c.version.getVersionFieldVal, destinationConnectionId := c.dcid.1,
            destinationConnectionIdLength := BitVec.ofNat 8 c.dcid.2, sourceConnectionId := sc, sourceConnectionIdLength := BitVec.ofNat 8 sl,
            versionNegotiation := none, isProtected := false } := by
  unfold LongPacketHeader.fromConnection Connection.getScid Connection.getDcid at hc
  cases hs : c.scid with
  | none => rw [hs] at hc; cases hc
  | some x =>
    obtain ⟨sc, sl⟩ := x
    rw [hs] at hc
    cases hc
    exact ⟨sc, sl, rfl, rfl⟩
theorem fromConnection_some {c : Connection} {b : U8} {sc : U160} {sl : Nat} (hs : c.scid = some (sc, sl)) :
    ∃ h, LongPacketHeader.fromConnection c b = .ok h := by
  unfold LongPacketHeader.fromConnection Connection.getScid Connection.getDcid
  rw [hs]; exact ⟨_, rfl⟩

theorem truncatePn_len {pn : U64} {la : Option U64} {b : Bytes} (h : truncatePn pn la = .ok b) : b.length ≤ 8 := by
  cases la with
  | none => have := (truncatePn_none_ok h).2.1; omega
  | some x =>
    unfold truncatePn at h
    dsimp only at h
    split at h
    · cases h
    · obtain ⟨n, _, h1⟩ := Out.bind_eq_ok h
      obtain ⟨_, rfl⟩ := sliceFrom_ok.mp h1
      rw [List.length_drop, toBeBytes_length]; omega

theorem initialByte (n : Nat) (h : 0 < n ∧ n ≤ 4) : (PacketInitial.newHeaderByte (BitVec.ofNat 8 n - 1)).toNat = 0xc0 + (n - 1) := by
  have : ∀ n : Fin 5, 0 < n.val → (PacketInitial.newHeaderByte (BitVec.ofNat 8 n - 1)).toNat = 0xc0 + (n - 1) := by decide +kernel
  exact this ⟨n, by omega⟩ h.1
theorem handshakeByte (n : Nat) (h : 0 < n ∧ n ≤ 4) : (PacketHandshake.newHeaderByte (BitVec.ofNat 8 n - 1)).toNat = 0xe0 + (n - 1) := by
  have : ∀ n : Fin 5, 0 < n.val → (PacketHandshake.newHeaderByte (BitVec.ofNat 8 n - 1)).toNat = 0xe0 + (n - 1) := by decide +kernel
  exact this ⟨n, by omega⟩ h.1

theorem version_nonzero (v : Version) : v.getVersionFieldVal.toNat = 1 := by cases v; decide

/-- Everything about a built Initial packet. -/
theorem initialNew_facts {bp : Profile} {c : Connection} {payload token p} (h : (PacketInitial.new bp payload token c).1 = .ok p) :
    ∃ sc sl, c.scid = some (sc, sl) ∧ 0 < p.packetNumberBytes.length ∧ p.packetNumberBytes.length ≤ 4 ∧
      p.header.headerByte.toNat = 0xc0 + (p.packetNumberBytes.length - 1) ∧
      p.header = { headerByte := p.header.headerByte, version := c.version.getVersionFieldVal, destinationConnectionId := c.dcid.1,
                   destinationConnectionIdLength := BitVec.ofNat 8 c.dcid.2, sourceConnectionId := sc, sourceConnectionIdLength := BitVec.ofNat 8 sl,
                   versionNegotiation := none, isProtected := false } ∧
      p.token = token.getD [] ∧ p.packetPayload = payload ∧ p.packetNumber = (c.pnInfo .initial).nextPn + 1 ∧
      truncatePn p.packetNumber (c.pnInfo .initial).largestLocalAck = .ok p.packetNumberBytes := by
  obtain ⟨h1, h2, h3, h4, h5⟩ := initialNew_ok h
  obtain ⟨g1, g2⟩ := getNextPn_ok h1
  have hl := truncatePn_len g2
  rw [Nat.mod_eq_of_lt (by omega)] at h2
  obtain ⟨f1, f2, f3⟩ := getNextPn_frame bp c .initial
  obtain ⟨sc, sl, e1, e2⟩ := fromConnection_ok h3
  refine ⟨sc, sl, by rw [← f3]; exact e1, h2.1, h2.2, ?_, ?_, h4, h5, g1, g2⟩
  · rw [e2]; exact initialByte _ h2
  · rw [e2, f1, f2]
theorem handshakeNew_facts {bp : Profile} {c : Connection} {payload p} (h : (PacketHandshake.new bp payload c).1 = .ok p) :
    ∃ sc sl, c.scid = some (sc, sl) ∧ 0 < p.packetNumberBytes.length ∧ p.packetNumberBytes.length ≤ 4 ∧
      p.header.headerByte.toNat = 0xe0 + (p.packetNumberBytes.length - 1) ∧
      p.header = { headerByte := p.header.headerByte, version := c.version.getVersionFieldVal, destinationConnectionId := c.dcid.1,
                   destinationConnectionIdLength := BitVec.ofNat 8 c.dcid.2, sourceConnectionId := sc, sourceConnectionIdLength := BitVec.ofNat 8 sl,
                   versionNegotiation := none, isProtected := false } ∧
      p.packetPayload = payload ∧ p.packetNumber = (c.pnInfo .handshake).nextPn + 1 ∧
      truncatePn p.packetNumber (c.pnInfo .handshake).largestLocalAck = .ok p.packetNumberBytes := by
  obtain ⟨h1, h2, h3, h5⟩ := handshakeNew_ok h
  obtain ⟨g1, g2⟩ := getNextPn_ok h1
  have hl := truncatePn_len g2
  rw [Nat.mod_eq_of_lt (by omega)] at h2
  obtain ⟨f1, f2, f3⟩ := getNextPn_frame bp c .handshake
  obtain ⟨sc, sl, e1, e2⟩ := fromConnection_ok h3
  refine ⟨sc, sl, by rw [← f3]; exact e1, h2.1, h2.2, ?_, ?_, h5, g1, g2⟩
  · rw [e2]; exact handshakeByte _ h2
  · rw [e2, f1, f2]

/-- A connection whose ids fit their lengths. -/
structure IdsOk (c : Connection) : Prop where
  dlen : c.dcid.2 ≤ 20
  dfits : cidVal c.dcid.1 < 256 ^ c.dcid.2
  slen : ∀ x, c.scid = some x → x.2 ≤ 20
  sfits : ∀ x, c.scid = some x → cidVal x.1 < 256 ^ x.2

theorem headerOk_of {c : Connection} (hc : IdsOk c) {h : LongPacketHeader} {sc : U160} {sl : Nat} (hs : c.scid = some (sc, sl))
    (e : h = { headerByte := h.headerByte, version := c.version.getVersionFieldVal, destinationConnectionId := c.dcid.1,
               destinationConnectionIdLength := BitVec.ofNat 8 c.dcid.2, sourceConnectionId := sc, sourceConnectionIdLength := BitVec.ofNat 8 sl,
               versionNegotiation := none, isProtected := false }) : HeaderOk h ∧ h.isProtected = false := by
  have m : ∀ n, n ≤ 20 → (BitVec.ofNat 8 n).toNat = n := by
    intro n hn; rw [BitVec.toNat_ofNat]; exact Nat.mod_eq_of_lt (by omega)
  have d1 := hc.dlen
  have s1 := hc.slen _ hs
  have s2 := hc.sfits _ hs
  dsimp only at s1 s2
  rw [e]
  refine ⟨⟨by rw [version_nonzero]; decide, rfl, ?_, ?_, ?_, ?_⟩, rfl⟩
  · show (BitVec.ofNat 8 c.dcid.2).toNat ≤ 20; rw [m _ d1]; exact d1
  · show _ < 256 ^ (BitVec.ofNat 8 c.dcid.2).toNat; rw [m _ d1]; exact hc.dfits
  · show (BitVec.ofNat 8 sl).toNat ≤ 20; rw [m _ s1]; exact s1
  · show _ < 256 ^ (BitVec.ofNat 8 sl).toNat; rw [m _ s1]; exact s2

theorem initial_kind {b : U8} {v : U32} (n : Nat) (hn : 0 < n ∧ n ≤ 4) (h : b.toNat = 0xc0 + (n - 1)) (hv : v.toNat = 1) :
    packetKind b v = .initial ∧ b.toNat % 4 + 1 = n := by
  refine ⟨?_, by omega⟩
  unfold packetKind
  rw [if_neg (by omega), if_neg (by omega), show b.toNat / 16 % 4 = 0 by omega]
  rfl
theorem handshake_kind {b : U8} {v : U32} (n : Nat) (hn : 0 < n ∧ n ≤ 4) (h : b.toNat = 0xe0 + (n - 1)) (hv : v.toNat = 1) :
    packetKind b v = .handshake ∧ b.toNat % 4 + 1 = n := by
  refine ⟨?_, by omega⟩
  unfold packetKind
  rw [if_neg (by omega), if_neg (by omega), show b.toNat / 16 % 4 = 2 by omega]
  rfl

/-- The counter moves by at most one per operation. -/
theorem run_nextPn (bp : Profile) (ops : List ConnOp) (c : Connection) (sp : PnSpace) (h : (c.pnInfo sp).nextPn.toNat + ops.length < 2 ^ 64) :
    ((c.run bp ops).2.pnInfo sp).nextPn.toNat ≤ (c.pnInfo sp).nextPn.toNat + ops.length := by
  induction ops generalizing c with
  | nil => exact Nat.le_refl _
  | cons op ops ih =>
    simp only [List.length_cons] at h ⊢
    have h1 : (((c.step bp op).2).pnInfo sp).nextPn.toNat ≤ (c.pnInfo sp).nextPn.toNat + 1 := by
      rcases step_pnInfo bp c op sp with e | ⟨_, e⟩
      · rw [e]; omega
      · rw [e]
        show ((c.pnInfo sp).nextPn + 1).toNat ≤ _
        rw [BitVec.toNat_add]
        exact Nat.le_trans (Nat.mod_le _ _) (by simp)
    have := ih (c.step bp op).2 (by omega)
    show ((((c.step bp op).2).run bp ops).2.pnInfo sp).nextPn.toNat ≤ _
    omega

theorem initialNew_some {bp : Profile} {c : Connection} {payload token} {sc : U160} {sl : Nat} (hs : c.scid = some (sc, sl))
    (ha : (c.pnInfo .initial).largestLocalAck = none) (hn : (c.pnInfo .initial).nextPn.toNat + 1 < 2 ^ 32) :
    ∃ p, (PacketInitial.new bp payload token c).1 = .ok p := by
  have hadd : ((c.pnInfo .initial).nextPn + 1).toNat = (c.pnInfo .initial).nextPn.toNat + 1 := by
    rw [BitVec.toNat_add]; exact Nat.mod_eq_of_lt (by simp; omega)
  have hg : (c.getNextPn bp .initial).1 = .ok ((c.pnInfo .initial).nextPn + 1, toBeBytes 4 (((c.pnInfo .initial).nextPn + 1).setWidth 32)) := by
    unfold Connection.getNextPn
    dsimp only
    rw [addU64_ok _ _ _ (by simp; omega)]
    dsimp only
    rw [ha, truncatePn_none _ (by rw [hadd]; exact hn)]
    rfl
  unfold PacketInitial.new
  have hc : c.getNextPn bp .initial = (_, (c.getNextPn bp .initial).2) := Prod.ext hg rfl
  rw [hc]
  dsimp only
  have hl : (toBeBytes 4 (((c.pnInfo .initial).nextPn + 1).setWidth 32 : U32)).length = 4 := toBeBytes_length _ _
  rw [hl, if_neg (by decide)]
  obtain ⟨h, e⟩ := fromConnection_some (b := PacketInitial.newHeaderByte (BitVec.ofNat 8 4 - 1)) ((getNextPn_frame bp c .initial).2.2.trans hs)
  rw [e]
  exact ⟨_, rfl⟩

/-- Serializing a built Initial packet gives an RFC Initial packet with a four-byte packet number. -/
theorem built_initial {P : Prims} (hP : PrimLaws P) {bp : Profile} {c c' : Connection} {k : Keys} (hk : c'.localSecrets .initial = .ok (secretsOf P k))
    (hkl : KeyLens k) (hc : IdsOk c) (ha : (c.pnInfo .initial).largestLocalAck = none) {fs : List Frame} {token : Option Bytes} {p : PacketInitial}
    (hb : (PacketInitial.new bp fs token c).1 = .ok p) {payload : Bytes} (hpl : serializeFrames fs false = .ok payload)
    (hs : payload.length < 2 ^ 30) (ht : (token.getD []).length < 2 ^ 28) :
    ∃ out, p.serialize c' = .ok out ∧ InitialWire P k p.header p.token p.packetNumberBytes p.packetNumber.toNat payload out ∧
      p.packetNumberBytes.length = 4 ∧ beNat p.packetNumberBytes = p.packetNumber.toNat ∧ p.header.isProtected = false ∧
      p.token = token.getD [] ∧ p.packetPayload = fs := by
  obtain ⟨sc, sl, e1, e2, e3, e4, e5, e6, e7, e8, e9⟩ := initialNew_facts hb
  obtain ⟨g1, g2⟩ := headerOk_of hc e1 e5
  rw [ha] at e9
  obtain ⟨t1, t2, t3⟩ := truncatePn_none_ok e9
  have hver : p.header.version.toNat = 1 := by rw [e5]; exact version_nonzero c.version
  obtain ⟨k1, k2⟩ := initial_kind (v := p.header.version) _ ⟨e2, e3⟩ e4 hver
  rw [← e7] at hpl
  rw [← e6] at ht
  obtain ⟨out, ho⟩ := initial_serialize_total hP hk hkl g1 g2 k2 hpl hs ht (by omega)
  exact ⟨out, ho, initial_serialize_wire hk hkl.2.1 g1 k1 k2 hpl (by omega) (by omega) ho, t2, t3, g2, e6, e7⟩

theorem built_handshake {P : Prims} (hP : PrimLaws P) {bp : Profile} {c c' : Connection} {k : Keys} (hk : c'.localSecrets .handshake = .ok (secretsOf P k))
    (hkl : KeyLens k) (hc : IdsOk c) (ha : (c.pnInfo .handshake).largestLocalAck = none) {fs : List Frame} {p : PacketHandshake}
    (hb : (PacketHandshake.new bp fs c).1 = .ok p) {payload : Bytes} (hpl : serializeFrames fs false = .ok payload)
    (hs : payload.length < 2 ^ 30) :
    ∃ out, p.serialize c' = .ok out ∧ HandshakeWire P k p.header p.packetNumberBytes p.packetNumber.toNat payload out ∧
      p.packetNumberBytes.length = 4 ∧ beNat p.packetNumberBytes = p.packetNumber.toNat ∧ p.header.isProtected = false ∧ p.packetPayload = fs := by
  obtain ⟨sc, sl, e1, e2, e3, e4, e5, e7, e8, e9⟩ := handshakeNew_facts hb
  obtain ⟨g1, g2⟩ := headerOk_of hc e1 e5
  rw [ha] at e9
  obtain ⟨t1, t2, t3⟩ := truncatePn_none_ok e9
  have hver : p.header.version.toNat = 1 := by rw [e5]; exact version_nonzero c.version
  obtain ⟨k1, k2⟩ := handshake_kind (v := p.header.version) _ ⟨e2, e3⟩ e4 hver
  rw [← e7] at hpl
  obtain ⟨out, ho⟩ := handshake_serialize_total hP hk hkl g1 g2 k2 hpl hs (by omega)
  exact ⟨out, ho, handshake_serialize_wire hk hkl.2.1 g1 k1 k2 hpl (by omega) ho, t2, t3, g2, e7⟩

theorem reconstruct_four {bp : Profile} {c : Connection} {sp : PnSpace} {pnB : Bytes} {pn : U64} (h4 : pnB.length ≤ 4) (hv : beNat pnB = pn.toNat)
    (ha : (c.pnInfo sp).largestRemoteAck = none) : c.reconstructRemotePn bp sp pnB = .ok pn := by
  rw [reconstruct_none bp c sp pnB h4 ha, hv]
  congr 1
  apply BitVec.eq_of_toNat_eq
  rw [BitVec.toNat_ofNat]
  exact Nat.mod_eq_of_lt pn.isLt

end QuicSea
