import Verif.Props.Write
import Verif.Props.Build
/-
C136: what the bytes of a packet show of its payload.

Two worlds are compared that have different AEADs. In one a payload is sent, in the other another payload of the same length, and the AEADs happen to seal both to
the same ciphertext. The code does the same in both: whatever it shows of the payload it shows through the ciphertext. (In one world alone the claim would say
nothing, for the ciphertext determines the payload.)
-/
namespace Spec
open QuicSea

/-- The state of a number space in two worlds: the same but for the algorithms. -/
def TwinSpace (P P' : Prims) (i i' : PnInfo) : Prop :=
  i.largestLocalAck = i'.largestLocalAck ∧ i.nextPn = i'.nextPn ∧
    ∃ k : Option Keys, i.localTlsSecrets = k.map (secretsOf P) ∧ i'.localTlsSecrets = k.map (secretsOf P')
/-- The same connection in two worlds. -/
def Twin (P P' : Prims) (c c' : Connection) : Prop :=
  c.version = c'.version ∧ c.dcid = c'.dcid ∧ c.scid = c'.scid ∧ ∀ sp, TwinSpace P P' (c.pnInfo sp) (c'.pnInfo sp)

/-- An Initial packet is built and written: the bytes, and the connection afterwards. -/
def emitInitial (bp : Profile) (fs : List Frame) (token : Option Bytes) (c : Connection) : Out Bytes × Connection :=
  match PacketInitial.new bp fs token c with
  | (.ok p, c) => (p.serialize c, c)
  | (.err e, c) => (.err e, c)
  | (.panic w, c) => (.panic w, c)
/-- A Handshake packet is built and written. -/
def emitHandshake (bp : Profile) (fs : List Frame) (c : Connection) : Out Bytes × Connection :=
  match PacketHandshake.new bp fs c with
  | (.ok p, c) => (p.serialize c, c)
  | (.err e, c) => (.err e, c)
  | (.panic w, c) => (.panic w, c)

/-- The keys with which packets of a space are sealed. -/
def sealingKey (c : Connection) (sp : PnSpace) : Bytes := ((c.pnInfo sp).localTlsSecrets.map (·.key)).getD []

/-- Two values exchanged, all others kept. -/
def swap (a a' x : Bytes) : Bytes := if x = a then a' else if x = a' then a else x
/-- The algorithms `P`, but for an AEAD that takes `a` for `a'` and `a'` for `a`. -/
def swapped (P : Prims) (a a' : Bytes) : Prims :=
  { P with gcmSeal := fun k iv ad p => P.gcmSeal k iv ad (swap a a' p), gcmOpen := fun k iv ad ct tag => (P.gcmOpen k iv ad ct tag).map (swap a a') }

/-- C136 as a statement. -/
def C136For (P P' : Prims) : Prop :=
  (∀ k s, P.aesEcb k s = P'.aesEcb k s) → ∀ (bp : Profile) (c c' : Connection), Twin P P' c c' →
    ∀ (fs fs' : List Frame) (a a' : Bytes), serializeFrames fs false = .ok a → serializeFrames fs' false = .ok a' → a.length = a'.length →
    (∀ token, (∀ nonce ad, P.gcmSeal (sealingKey c .initial) nonce ad a = P'.gcmSeal (sealingKey c .initial) nonce ad a') →
      (emitInitial bp fs token c).1 = (emitInitial bp fs' token c').1 ∧ Twin P P' (emitInitial bp fs token c).2 (emitInitial bp fs' token c').2) ∧
    ((∀ nonce ad, P.gcmSeal (sealingKey c .handshake) nonce ad a = P'.gcmSeal (sealingKey c .handshake) nonce ad a') →
      (emitHandshake bp fs c).1 = (emitHandshake bp fs' c').1 ∧ Twin P P' (emitHandshake bp fs c).2 (emitHandshake bp fs' c').2)
/-- The claim, for all pairs of algorithms, whether or not they obey the laws. -/
def C136Statement : Prop := ∀ P P', C136For P P'
end Spec

namespace QuicSea
open Spec
variable {P P' : Prims} {bp : Profile}

theorem twin_next {c c' : Connection} (h : Twin P P' c c') (sp : PnSpace) :
    (c.getNextPn bp sp).1 = (c'.getNextPn bp sp).1 ∧ Twin P P' (c.getNextPn bp sp).2 (c'.getNextPn bp sp).2 ∧
      ((c.getNextPn bp sp).2.pnInfo sp).localTlsSecrets = (c.pnInfo sp).localTlsSecrets := by
  obtain ⟨h1, h2, h3, h4⟩ := h
  obtain ⟨i1, i2, k, i3, i4⟩ := h4 sp
  unfold Connection.getNextPn
  dsimp only
  rw [i2, i1]
  cases addU64 bp (c'.pnInfo sp).nextPn 1 with
  | err e => exact ⟨rfl, ⟨h1, h2, h3, h4⟩, rfl⟩
  | panic e => exact ⟨rfl, ⟨h1, h2, h3, h4⟩, rfl⟩
  | ok n =>
    refine ⟨rfl, ?_, by cases sp <;> rfl⟩
    have hs : ∀ sp', TwinSpace P P' ((c.setPnInfo sp { c.pnInfo sp with largestLocalAck := (c'.pnInfo sp).largestLocalAck, nextPn := n }).pnInfo sp') ((c'.setPnInfo sp { c'.pnInfo sp with nextPn := n }).pnInfo sp') := by
      intro sp'
      have g : TwinSpace P P' { c.pnInfo sp with largestLocalAck := (c'.pnInfo sp).largestLocalAck, nextPn := n } { c'.pnInfo sp with nextPn := n } := ⟨rfl, rfl, k, i3, i4⟩
      have g' := h4 sp'
      cases sp <;> cases sp' <;> first | exact g | exact g'
    cases sp <;> exact ⟨h1, h2, h3, hs⟩

theorem twin_header {c c' : Connection} (h : Twin P P' c c') (b : U8) : LongPacketHeader.fromConnection c b = LongPacketHeader.fromConnection c' b := by
  obtain ⟨h1, h2, h3, -⟩ := h
  simp only [LongPacketHeader.fromConnection, Connection.getDcid, Connection.getScid, Connection.getVersionField, h1, h2, h3]

theorem twin_seal (he : ∀ k s, P.aesEcb k s = P'.aesEcb k s) {c c' : Connection} {sp : PnSpace} (h : TwinSpace P P' (c.pnInfo sp) (c'.pnInfo sp)) {a a' : Bytes}
    (hs : ∀ nonce ad, P.gcmSeal (sealingKey c sp) nonce ad a = P'.gcmSeal (sealingKey c sp) nonce ad a') (hd : LongPacketHeader) (mid pnb : Bytes) (pn : U64) (n : Nat) :
    sealTail c sp hd mid pnb pn n a = sealTail c' sp hd mid pnb pn n a' := by
  obtain ⟨-, -, k, i3, i4⟩ := h
  have hm : hpMaskAes128Ecb P = hpMaskAes128Ecb P' := by
    funext k s
    unfold hpMaskAes128Ecb
    rw [he]
  cases k with
  | none => simp only [sealTail, Connection.encryptLocalPayload, Connection.localSecrets, i3, i4, Option.map_none]; rfl
  | some k =>
    have hs : ∀ nonce ad, P.gcmSeal k.key nonce ad a = P'.gcmSeal k.key nonce ad a' := by
      simpa [sealingKey, i3, secretsOf] using hs
    have e1 : ∀ (ad : Bytes) (q : U64), c.encryptLocalPayload sp a ad q = c'.encryptLocalPayload sp a' ad q := by
      intro ad q
      simp only [Connection.encryptLocalPayload, Connection.localSecrets, i3, i4, Option.map_some]
      show internalEncryptAes128Gcm P k.key _ _ a = internalEncryptAes128Gcm P' k.key _ _ a'
      unfold internalEncryptAes128Gcm
      rw [hs]
    have e2 : c.getLocalHpMask sp = c'.getLocalHpMask sp := by
      funext b
      unfold Connection.getLocalHpMask Connection.localSecrets
      rw [i3, i4]
      show ((varBytesFromStream 16 >>= fun s => Rd.lift (hpMaskAes128Ecb P k.hp s)) : Rd Mask) b = (varBytesFromStream 16 >>= fun s => Rd.lift (hpMaskAes128Ecb P' k.hp s) : Rd Mask) b
      rw [hm]
    unfold sealTail
    simp only [e1, e2]

theorem twin_len {c c' : Connection} {sp : PnSpace} (h : TwinSpace P P' (c.pnInfo sp) (c'.pnInfo sp)) (n : Nat) :
    c.getLocalProtectedPayloadLen sp n = c'.getLocalProtectedPayloadLen sp n := by
  obtain ⟨-, -, k, i3, i4⟩ := h
  unfold Connection.getLocalProtectedPayloadLen Connection.localSecrets
  rw [i3, i4]
  cases k <;> rfl

theorem twin_initial (he : ∀ k s, P.aesEcb k s = P'.aesEcb k s) {c c' : Connection} (h : TwinSpace P P' (c.pnInfo .initial) (c'.pnInfo .initial)) {fs fs' : List Frame} {a a' : Bytes}
    (ha : serializeFrames fs false = .ok a) (ha' : serializeFrames fs' false = .ok a') (hl : a.length = a'.length)
    (hs : ∀ nonce ad, P.gcmSeal (sealingKey c .initial) nonce ad a = P'.gcmSeal (sealingKey c .initial) nonce ad a') (p : PacketInitial) :
    ({ p with packetPayload := fs } : PacketInitial).serialize c = ({ p with packetPayload := fs' } : PacketInitial).serialize c' := by
  simp only [initial_serialize_eq, ha, ha', Out.ok_bind, hl, twin_len h, twin_seal he h hs]

theorem twin_handshake (he : ∀ k s, P.aesEcb k s = P'.aesEcb k s) {c c' : Connection} (h : TwinSpace P P' (c.pnInfo .handshake) (c'.pnInfo .handshake)) {fs fs' : List Frame} {a a' : Bytes}
    (ha : serializeFrames fs false = .ok a) (ha' : serializeFrames fs' false = .ok a') (hl : a.length = a'.length)
    (hs : ∀ nonce ad, P.gcmSeal (sealingKey c .handshake) nonce ad a = P'.gcmSeal (sealingKey c .handshake) nonce ad a') (p : PacketHandshake) :
    ({ p with packetPayload := fs } : PacketHandshake).serialize c = ({ p with packetPayload := fs' } : PacketHandshake).serialize c' := by
  simp only [handshake_serialize_eq, ha, ha', Out.ok_bind, hl, twin_len h, twin_seal he h hs]

/-- C136: which packet is built, and whether one is, does not depend on the frames. -/
theorem C136_built {c c' : Connection} (h : Twin P P' c c') (fs fs' : List Frame) (token : Option Bytes) :
    (PacketInitial.new bp fs' token c').1 = ((PacketInitial.new bp fs token c).1 >>= fun p => .ok { p with packetPayload := fs' }) ∧
    Twin P P' (PacketInitial.new bp fs token c).2 (PacketInitial.new bp fs' token c').2 ∧
    (PacketHandshake.new bp fs' c').1 = ((PacketHandshake.new bp fs c).1 >>= fun p => .ok { p with packetPayload := fs' }) ∧
    Twin P P' (PacketHandshake.new bp fs c).2 (PacketHandshake.new bp fs' c').2 := by
  obtain ⟨g1, g2, -⟩ := twin_next (bp := bp) h .initial
  obtain ⟨k1, k2, -⟩ := twin_next (bp := bp) h .handshake
  unfold PacketInitial.new PacketHandshake.new
  generalize c.getNextPn bp .initial = x at g1 g2
  generalize c'.getNextPn bp .initial = x' at g1 g2
  generalize c.getNextPn bp .handshake = y at k1 k2
  generalize c'.getNextPn bp .handshake = y' at k1 k2
  obtain ⟨o, c1⟩ := x
  obtain ⟨o', c1'⟩ := x'
  obtain ⟨q, c2⟩ := y
  obtain ⟨q', c2'⟩ := y'
  dsimp only at g1 g2 k1 k2
  subst g1 k1
  refine ⟨?_, ?_, ?_, ?_⟩
  · cases o with
    | ok r =>
      dsimp only
      rw [twin_header g2]
      split
      · rfl
      · cases LongPacketHeader.fromConnection c1' (PacketInitial.newHeaderByte (BitVec.ofNat 8 r.2.length - 1)) <;> rfl
    | _ => rfl
  · cases o <;> exact g2
  · cases q with
    | ok r =>
      dsimp only
      rw [twin_header k2]
      split
      · rfl
      · cases LongPacketHeader.fromConnection c2' (PacketHandshake.newHeaderByte (BitVec.ofNat 8 r.2.length - 1)) <;> rfl
    | _ => rfl
  · cases q <;> exact k2

theorem new_payload {c : Connection} {fs : List Frame} {token : Option Bytes} {p : PacketInitial} {c1 : Connection} (h : PacketInitial.new bp fs token c = (.ok p, c1)) :
    p = { p with packetPayload := fs } := by
  have := (C126_initial bp c fs token p).mp (by rw [h])
  rw [← this.2.2.2.2.2.2]
theorem new_payload' {c : Connection} {fs : List Frame} {p : PacketHandshake} {c1 : Connection} (h : PacketHandshake.new bp fs c = (.ok p, c1)) :
    p = { p with packetPayload := fs } := by
  have := (C126_handshake bp c fs p).mp (by rw [h])
  rw [← this.2.2.2.2.2]

theorem new_keys {c : Connection} (fs : List Frame) (token : Option Bytes) :
    sealingKey (PacketInitial.new bp fs token c).2 .initial = sealingKey c .initial ∧ sealingKey (PacketHandshake.new bp fs c).2 .handshake = sealingKey c .handshake := by
  have key : ∀ sp, sealingKey (c.getNextPn bp sp).2 sp = sealingKey c sp := by
    intro sp
    unfold Connection.getNextPn sealingKey
    dsimp only
    cases addU64 bp (c.pnInfo sp).nextPn 1 <;> first | rfl | (cases sp <;> rfl)
  constructor
  · rw [← key .initial]
    unfold PacketInitial.new
    rcases c.getNextPn bp .initial with ⟨o, c1⟩
    cases o <;> rfl
  · rw [← key .handshake]
    unfold PacketHandshake.new
    rcases c.getNextPn bp .handshake with ⟨o, c1⟩
    cases o <;> rfl

/-- **C136**: what is sent depends on the payload only through its length and its ciphertext. -/
theorem C136_all : C136Statement := by
  intro P P' he bp c c' h fs fs' a a' ha ha' hl
  constructor
  · intro token hs
    obtain ⟨b1, b2, -, -⟩ := C136_built (bp := bp) h fs fs' token
    have hk := (new_keys (bp := bp) (c := c) fs token).1
    unfold emitInitial
    rcases hx : PacketInitial.new bp fs token c with ⟨o, c1⟩
    rcases hy : PacketInitial.new bp fs' token c' with ⟨o', c1'⟩
    rw [hx, hy] at b1 b2
    rw [hx] at hk
    dsimp only at b1 b2 hk
    cases o with
    | ok p =>
      cases b1
      refine ⟨?_, b2⟩
      dsimp only
      rw [new_payload hx]
      exact twin_initial he (b2.2.2.2 .initial) ha ha' hl (by rw [hk]; exact hs) p
    | err e => cases b1; exact ⟨rfl, b2⟩
    | panic e => cases b1; exact ⟨rfl, b2⟩
  · intro hs
    obtain ⟨-, -, b1, b2⟩ := C136_built (bp := bp) h fs fs' none
    have hk := (new_keys (bp := bp) (c := c) fs none).2
    unfold emitHandshake
    rcases hx : PacketHandshake.new bp fs c with ⟨o, c1⟩
    rcases hy : PacketHandshake.new bp fs' c' with ⟨o', c1'⟩
    rw [hx, hy] at b1 b2
    rw [hx] at hk
    dsimp only at b1 b2 hk
    cases o with
    | ok p =>
      cases b1
      refine ⟨?_, b2⟩
      dsimp only
      rw [new_payload' hx]
      exact twin_handshake he (b2.2.2.2 .handshake) ha ha' hl (by rw [hk]; exact hs) p
    | err e => cases b1; exact ⟨rfl, b2⟩
    | panic e => cases b1; exact ⟨rfl, b2⟩

/-! ### Any payload of that length -/

theorem swap_swap (a a' x : Bytes) : swap a a' (swap a a' x) = x := by
  unfold swap
  by_cases h : x = a
  · by_cases h' : a' = a
    · simp [h, h']
    · simp [h, h']
  · by_cases h' : x = a'
    · subst h'
      simp [h]
    · simp [h, h']

theorem swap_length {a a' : Bytes} (h : a.length = a'.length) (x : Bytes) : (swap a a' x).length = x.length := by
  unfold swap
  split
  · next e => rw [e, h]
  split
  · next e => rw [e, h]
  rfl

/-- The algorithms with two payloads of one length exchanged obey the laws too. -/
theorem swapped_laws {P : Prims} (hP : PrimLaws P) {a a' : Bytes} (h : a.length = a'.length) : PrimLaws (swapped P a a') where
  extract_length := hP.extract_length
  prk_ok := hP.prk_ok
  expand := hP.expand
  ecb := hP.ecb
  sealing k iv ad p hk hi had hp := hP.sealing k iv ad _ hk hi had (by rw [swap_length h]; exact hp)
  seal_length k iv ad p ct tag hs := by
    have := hP.seal_length _ _ _ _ _ _ hs
    rwa [swap_length h] at this
  open_seal k iv ad p ct tag hs := by
    show (P.gcmOpen k iv ad ct tag).map _ = _
    rw [hP.open_seal _ _ _ _ _ _ hs, Option.map_some, swap_swap]
  seal_open k iv ad p ct tag ht ho := by
    obtain ⟨q, hq, rfl⟩ := Option.map_eq_some_iff.mp ho
    show P.gcmSeal k iv ad (swap a a' (swap a a' q)) = _
    rw [swap_swap]
    exact hP.seal_open _ _ _ _ _ _ ht hq

/-- The connection, in the world of the algorithms `P`. -/
def inWorld (P : Prims) (k : PnSpace → Option Keys) (c : Connection) : Connection :=
  { c with
    initialPnInfo := { c.initialPnInfo with localTlsSecrets := (k .initial).map (secretsOf P) }
    handshakePnInfo := { c.handshakePnInfo with localTlsSecrets := (k .handshake).map (secretsOf P) }
    applicationPnInfo := { c.applicationPnInfo with localTlsSecrets := (k .application).map (secretsOf P) } }

theorem twin_world (k : PnSpace → Option Keys) (c : Connection) : Twin P P' (inWorld P k c) (inWorld P' k c) :=
  ⟨rfl, rfl, rfl, fun sp => by cases sp <;> exact ⟨rfl, rfl, _, rfl, rfl⟩⟩

/-- **C136**: whatever the algorithms, what is sent for one payload is what would be sent for any other payload of that length by algorithms that obey the laws as
well and differ in nothing but in how they seal and open. So the header, the mask and the length field tell of the payload nothing that the ciphertext and its
length do not. -/
theorem C136_any (P : Prims) (hP : PrimLaws P) (bp : Profile) (k : PnSpace → Option Keys) (c : Connection) (fs fs' : List Frame) (a a' : Bytes)
    (ha : serializeFrames fs false = .ok a) (ha' : serializeFrames fs' false = .ok a') (hl : a.length = a'.length) :
    ∃ P', PrimLaws P' ∧ P'.aesEcb = P.aesEcb ∧ P'.hkdfExpand = P.hkdfExpand ∧ P'.hkdfExtract = P.hkdfExtract ∧
      (∀ token, (emitInitial bp fs token (inWorld P k c)).1 = (emitInitial bp fs' token (inWorld P' k c)).1) ∧
      (emitHandshake bp fs (inWorld P k c)).1 = (emitHandshake bp fs' (inWorld P' k c)).1 := by
  have hs : ∀ key nonce ad, P.gcmSeal key nonce ad a = (swapped P a a').gcmSeal key nonce ad a' := by
    intro key nonce ad
    show _ = P.gcmSeal key nonce ad (swap a a' a')
    congr 1
    unfold swap
    split
    · next e => exact e.symm
    · rw [if_pos rfl]
  have h := C136_all P (swapped P a a') (fun _ _ => rfl) bp _ _ (twin_world k c) fs fs' a a' ha ha' hl
  exact ⟨swapped P a a', swapped_laws hP hl, rfl, rfl, rfl, fun token => (h.1 token (hs _)).1, (h.2 (hs _)).1⟩

/-! ### The length is shown -/

theorem shortVarInt_mono {b b' : Bytes} {v v' : Nat} (h : ShortVarInt b v) (h' : ShortVarInt b' v') (hv : v ≤ v') : b.length ≤ b'.length := by
  have l := h.1.lt
  have l' := h'.1.lt
  have t : (BitVec.ofNat 64 v).toNat = v := ofNat64_toNat (by omega)
  have t' : (BitVec.ofNat 64 v').toNat = v' := ofNat64_toNat (by omega)
  obtain ⟨x, k, e, -, n, -, -, g⟩ := encodeVarInt_spec (BitVec.ofNat 64 v) (by omega)
  obtain ⟨x', k', e', -, n', g', -, -⟩ := encodeVarInt_spec (BitVec.ofNat 64 v') (by omega)
  rw [(encodeVarInt_iff _ _).mpr (by rw [t]; exact h)] at e
  rw [(encodeVarInt_iff _ _).mpr (by rw [t']; exact h')] at e'
  cases e
  cases e'
  rw [n, n']
  refine Nat.pow_le_pow_right (by decide) (Nat.not_lt.mp fun hlt => ?_)
  have := g k' hlt
  omega

theorem midBytes_mono {t : Option Bytes} {n n' : Nat} {m m' : Bytes} (h : MidBytes t n m) (h' : MidBytes t n' m') (hn : n ≤ n') : m.length ≤ m'.length := by
  obtain ⟨b, g, e⟩ := h
  obtain ⟨b', g', e'⟩ := h'
  have := shortVarInt_mono g g' hn
  cases t with
  | none => subst e e'; exact this
  | some t =>
    obtain ⟨l, q, rfl⟩ := e
    obtain ⟨l', q', rfl⟩ := e'
    have := shortVarInt_mono q q' (Nat.le_refl _)
    simp only [List.length_append]
    omega

theorem written_length {P : Prims} (hP : PrimLaws P) {k : Keys} {h : LongPacketHeader} {mid pnb : Bytes} {pn : Nat} {a out : Bytes} (w : WrittenLong P k h mid pnb pn a out) :
    out.length = 7 + h.destinationConnectionIdLength.toNat + h.sourceConnectionIdLength.toNat + mid.length + pnb.length + a.length + 16 := by
  obtain ⟨_, _, _, ct, tag, m0, m1, m2, m3, m4, r, -, -, -, hp, hs, -, -, ⟨vb, d, s, rfl, h1, -, h2, -, -, h3, -, -⟩, rfl⟩ := w
  obtain ⟨l1, l2⟩ := hP.seal_length _ _ _ _ _ _ hs
  simp only [List.length_append, List.length_cons, List.length_nil, List.length_zipWith]
  omega

theorem written_grow {P : Prims} (hP : PrimLaws P) {k : Keys} {h : LongPacketHeader} {t : Option Bytes} {mid mid' pnb : Bytes} {pn : Nat} {a a' out out' : Bytes}
    (g : MidBytes t (16 + a.length + announced h) mid) (g' : MidBytes t (16 + a'.length + announced h) mid')
    (w : WrittenLong P k h mid pnb pn a out) (w' : WrittenLong P k h mid' pnb pn a' out') : out.length ≤ out'.length ↔ a.length ≤ a'.length := by
  have e := written_length hP w
  have e' := written_length hP w'
  constructor
  · intro hl
    refine Nat.not_lt.mp fun hc => ?_
    have := midBytes_mono g' g (by omega)
    omega
  · intro hl
    have := midBytes_mono g g' (by omega)
    omega

/-- **C136**: the length is always shown: of two packets that differ in the payload only, the longer is the one with the longer payload. Nothing is padded. -/
theorem C136_length (P : Prims) (hP : PrimLaws P) (c : Connection) (k : Keys) (hkl : KeyLens k) (fs fs' : List Frame) (a a' : Bytes)
    (ha : serializeFrames fs false = .ok a) (ha' : serializeFrames fs' false = .ok a') (hl : a.length + 20 < 2 ^ 64) (hl' : a'.length + 20 < 2 ^ 64) (out out' : Bytes) :
    (c.localSecrets .initial = .ok (secretsOf P k) → ∀ p : PacketInitial, p.token.length < 2 ^ 64 →
      ({ p with packetPayload := fs } : PacketInitial).serialize c = .ok out → ({ p with packetPayload := fs' } : PacketInitial).serialize c = .ok out' →
      (out.length ≤ out'.length ↔ a.length ≤ a'.length)) ∧
    (c.localSecrets .handshake = .ok (secretsOf P k) → ∀ p : PacketHandshake,
      ({ p with packetPayload := fs } : PacketHandshake).serialize c = .ok out → ({ p with packetPayload := fs' } : PacketHandshake).serialize c = .ok out' →
      (out.length ≤ out'.length ↔ a.length ≤ a'.length)) := by
  constructor
  · intro hk p ht h h'
    obtain ⟨b, mid, e, -, g, w⟩ := (C128_initial P hP c k hkl hk { p with packetPayload := fs } (fun b hb => by cases ha.symm.trans hb; exact hl) ht out).mp h
    obtain ⟨b', mid', e', -, g', w'⟩ := (C128_initial P hP c k hkl hk { p with packetPayload := fs' } (fun b hb => by cases ha'.symm.trans hb; exact hl') ht out').mp h'
    cases ha.symm.trans e
    cases ha'.symm.trans e'
    exact written_grow hP g g' w w'
  · intro hk p h h'
    obtain ⟨b, mid, e, -, g, w⟩ := (C128_handshake P hP c k hkl hk { p with packetPayload := fs } (fun b hb => by cases ha.symm.trans hb; exact hl) out).mp h
    obtain ⟨b', mid', e', -, g', w'⟩ := (C128_handshake P hP c k hkl hk { p with packetPayload := fs' } (fun b hb => by cases ha'.symm.trans hb; exact hl') out').mp h'
    cases ha.symm.trans e
    cases ha'.symm.trans e'
    exact written_grow hP g g' w w'

/-! An Initial and a Handshake packet with a PING and a PADDING frame in this or that order, in the toy world and in the one with the two payloads exchanged:
different payloads, the same packets. -/
def exTwinKeys : Keys := ⟨1 :: List.replicate 15 0, List.replicate 12 2, 3 :: List.replicate 15 0⟩
def exTwin : Connection := ⟨.v1, PnInfo.new, PnInfo.new, PnInfo.new, (⟨0, 5⟩, 2), some (⟨0, 7⟩, 1)⟩
def exTwinA : List Frame := [.ping, .padding, .padding]
def exTwinB : List Frame := [.padding, .ping, .padding]
example : (emitInitial .debug exTwinA none (inWorld toy (fun _ => some exTwinKeys) exTwin)).1
      = (emitInitial .debug exTwinB none (inWorld (swapped toy [1, 0, 0] [0, 1, 0]) (fun _ => some exTwinKeys) exTwin)).1 ∧
    (∃ b, (emitInitial .debug exTwinA none (inWorld toy (fun _ => some exTwinKeys) exTwin)).1 = .ok b ∧ b.length = 35) ∧
    (emitInitial .debug exTwinA none (inWorld toy (fun _ => some exTwinKeys) exTwin)).1
      ≠ (emitInitial .debug exTwinB none (inWorld toy (fun _ => some exTwinKeys) exTwin)).1 := by
  refine ⟨((C136_all toy (swapped toy [1, 0, 0] [0, 1, 0]) (fun _ _ => rfl) .debug _ _ (twin_world _ exTwin) exTwinA exTwinB [1, 0, 0] [0, 1, 0] (by decide +kernel)
    (by decide +kernel) rfl).1 none (fun _ _ => rfl)).1, ⟨_, rfl, by decide +kernel⟩, by decide +kernel⟩

end QuicSea
