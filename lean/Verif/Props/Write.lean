import Verif.Props.Acked
import Verif.Props.Shortest
import Verif.Props.Send
/-
C128: what becomes of any packet that is written, on any connection.
-/
namespace Spec
open QuicSea

/-- The shortest variable-length encoding. -/
def ShortVarInt (b : Bytes) (v : Nat) : Prop := IsVarInt b v ∧ ∀ b', IsVarInt b' v → b.length ≤ b'.length

/-- A long header with this first byte: version and the two ids, each after its length, which is at most 20. An id that does not fit its length is cut to
its last bytes. -/
def HeadBytes (h : LongPacketHeader) (first : U8) (bs : Bytes) : Prop :=
  ∃ vb d s, bs = [first] ++ vb ++ [h.destinationConnectionIdLength] ++ d ++ [h.sourceConnectionIdLength] ++ s ∧ vb.length = 4 ∧ beNat vb = h.version.toNat ∧
    d.length = h.destinationConnectionIdLength.toNat ∧ d.length ≤ 20 ∧ beNat d = cidVal h.destinationConnectionId % 256 ^ d.length ∧
    s.length = h.sourceConnectionIdLength.toNat ∧ s.length ≤ 20 ∧ beNat s = cidVal h.sourceConnectionId % 256 ^ s.length

/-- How many packet number bytes the first byte of a header announces. -/
def announced (h : LongPacketHeader) : Nat := h.headerByte.toNat % 4 + 1

/-- A long packet: the header and the fields `mid` before the packet number; the packet number bytes, masked; the payload, sealed. The sample for the mask
begins as far into the sealed payload as the number announced (whatever bytes there are) falls short of four. -/
def WrittenLong (P : Prims) (k : Keys) (h : LongPacketHeader) (mid pnBytes : Bytes) (pn : Nat) (payload out : Bytes) : Prop :=
  ∃ (head head' nb ct tag : Bytes) (m0 m1 m2 m3 m4 : U8) (r : Bytes),
    HeadBytes h h.headerByte head ∧ nb.length = 8 ∧ beNat nb = pn ∧ pnBytes.length ≤ 4 ∧
    P.gcmSeal k.key (rfcNonce k.iv nb) (head ++ mid ++ pnBytes) payload = some (ct, tag) ∧
    20 ≤ announced h + (ct ++ tag).length ∧
    P.aesEcb k.hp (((ct ++ tag).drop (4 - announced h)).take 16) = some (m0 :: m1 :: m2 :: m3 :: m4 :: r) ∧
    HeadBytes h (h.headerByte ^^^ (m0 &&& 0x0f)) head' ∧
    out = head' ++ mid ++ pnBytes.zipWith (· ^^^ ·) [m1, m2, m3, m4] ++ ct ++ tag

/-- The fields between the ids and the packet number: the token with its length, if the packet has a token, and the length of the rest. -/
def MidBytes (token : Option Bytes) (len : Nat) (mid : Bytes) : Prop :=
  ∃ lb, ShortVarInt lb len ∧ match token with
    | none => mid = lb
    | some t => ∃ tl, ShortVarInt tl t.length ∧ mid = tl ++ t ++ lb

/-- How writing a packet ends, once its frames are written: the header must not be protected, there must be keys, the ids must have at most 20 bytes; then
there must be bytes enough for a sample, and not more than four packet number bytes. -/
def writeKind (keys : Bool) (h : LongPacketHeader) (pnLen payloadLen : Nat) : Kind :=
  if h.isProtected then .err
  else if !keys then .err
  else if 20 < h.destinationConnectionIdLength.toNat ∨ 20 < h.sourceConnectionIdLength.toNat then .panic
  else if announced h + payloadLen < 4 then .err
  else if 4 < pnLen then .err
  else .ok

end Spec

namespace QuicSea
open Spec

theorem encodeVarInt_iff (x : U64) (b : Bytes) : encodeVarInt x = .ok b ↔ ShortVarInt b x.toNat := by
  constructor
  · exact C03_varint_encode_minimal x b
  · rintro ⟨h1, h2⟩
    obtain ⟨b', hb⟩ := encodeVarInt_ok x h1.lt
    obtain ⟨g1, -⟩ := C03_varint_encode_minimal x b' hb
    rw [hb, (Shortest.enc hb h1).2 (h2 _ g1)]

theorem headBytes_unique {h : LongPacketHeader} {x : U8} {b b' : Bytes} (g : HeadBytes h x b) (g' : HeadBytes h x b') : b = b' := by
  obtain ⟨v, d, s, rfl, a1, a2, a3, -, a4, a5, -, a6⟩ := g
  obtain ⟨v', d', s', rfl, b1, b2, b3, -, b4, b5, -, b6⟩ := g'
  have ld : d.length = d'.length := a3.trans b3.symm
  have ls : s.length = s'.length := a5.trans b5.symm
  rw [beNat_inj (a1.trans b1.symm) (a2.trans b2.symm), beNat_inj ld (by rw [a4, b4, ld]), beNat_inj ls (by rw [a6, b6, ls])]

/-- `LongPacketHeader::to_bytes`. -/
theorem longBytes_iff (h : LongPacketHeader) (x : U8) (pr : Bool) (b : Bytes) :
    LongPacketHeader.toBytes { h with headerByte := x, isProtected := pr } = .ok b ↔ HeadBytes h x b := by
  have fwd : ∀ b, LongPacketHeader.toBytes { h with headerByte := x, isProtected := pr } = .ok b → HeadBytes h x b := by
    intro b e
    unfold LongPacketHeader.toBytes at e
    obtain ⟨d, e1, e⟩ := Out.bind_eq_ok e
    obtain ⟨s, e2, e⟩ := Out.bind_eq_ok e
    cases e
    have le : ∀ {x : U160} {n : Nat} {b : Bytes}, x.toVarBytes n = .ok b → b.length ≤ 20 := by
      intro x n b hb
      have := (toVarBytes_ok hb).1
      refine Nat.not_lt.mp fun hlt => ?_
      have := toVarBytes_panic x n (by omega)
      rw [hb] at this
      cases this
    have l1 := (toVarBytes_ok e1).1
    have l2 := (toVarBytes_ok e2).1
    exact ⟨_, d, s, rfl, toBeBytes_length _ _, beNat_toBeBytes' 4 h.version, l1, le e1, by rw [l1]; exact (toVarBytes_ok e1).2, l2, le e2,
      by rw [l2]; exact (toVarBytes_ok e2).2⟩
  refine ⟨fwd b, fun g => ?_⟩
  have hex : ∃ b', LongPacketHeader.toBytes { h with headerByte := x, isProtected := pr } = .ok b' := by
    obtain ⟨v, d, s, -, -, -, a3, a3', -, a5, a5', -⟩ := g
    obtain ⟨d', e1, -⟩ := toVarBytes_spec h.destinationConnectionId _ (a3 ▸ a3')
    obtain ⟨s', e2, -⟩ := toVarBytes_spec h.sourceConnectionId _ (a5 ▸ a5')
    unfold LongPacketHeader.toBytes
    rw [e1, Out.ok_bind, e2, Out.ok_bind]
    exact ⟨_, rfl⟩
  obtain ⟨b', hb⟩ := hex
  rw [hb, headBytes_unique (fwd b' hb) g]

theorem longBytes_iff' (h : LongPacketHeader) (b : Bytes) : h.toBytes = .ok b ↔ HeadBytes h h.headerByte b :=
  longBytes_iff h h.headerByte h.isProtected b

/-- The sample and the mask. -/
theorem localMask_iff {P : Prims} {c : Connection} {sp : PnSpace} {k : Keys} (hk : c.localSecrets sp = .ok (secretsOf P k)) (b : Bytes) (m : Mask) :
    (c.getLocalHpMask sp (makeResultStream b)).1 = .ok m ↔ 16 ≤ b.length ∧ ∃ r, P.aesEcb k.hp (b.take 16) = some (m.m0 :: m.m1 :: m.m2 :: m.m3 :: m.m4 :: r) := by
  rw [getLocalHpMask_eq hk]
  constructor
  · intro h
    obtain ⟨smp, s', g1, g2, g3⟩ := hpm_inv h
    have hlen : b.length = smp.length + s'.length := by
      have := congrArg List.length g1
      simpa using this
    have e16 : List.take 16 (makeResultStream b) = makeResultStream (b.take 16) := by simp [makeResultStream, List.map_take]
    have : b.take 16 = smp := makeResultStream_inj (by rw [← e16, g1, List.take_left' (by simp [g2])])
    exact ⟨by omega, by rw [this]; exact hpMask_ok.mp g3⟩
  · rintro ⟨h1, h2⟩
    conv => lhs; rw [← List.take_append_drop 16 b]
    rw [makeResultStream_append, hpm_run (by rw [List.length_take]; omega)]
    exact hpMask_ok.mpr h2

theorem varBytes_few {n : Nat} {b : Bytes} (h : b.length < n) : kindOf (varBytesFromStream n (makeResultStream b)).1 = .err := by
  have hn := varBytes_noPanic n (makeResultStream b)
  rcases hv : varBytesFromStream n (makeResultStream b) with ⟨o, s'⟩
  rw [hv] at hn
  cases o with
  | ok a =>
    obtain ⟨bs, g1, rfl, g2⟩ := varBytes_sound n _ _ _ hv
    have := congrArg List.length g1
    simp only [makeResultStream, List.length_map, List.length_append] at this
    omega
  | err e => rfl
  | panic w => cases hn

/-- The end of both `serialize` functions, for any header that is not protected. -/
theorem sealTail_iff {P : Prims} {c : Connection} {sp : PnSpace} {k : Keys} (hP : PrimLaws P) (hk : c.localSecrets sp = .ok (secretsOf P k))
    (hiv : k.iv.length = 12) {h : LongPacketHeader} (hp : h.isProtected = false) (mid pnB : Bytes) (pn : U64) (payload out : Bytes) :
    sealTail c sp h mid pnB pn (announced h) payload = .ok out ↔ WrittenLong P k h mid pnB pn.toNat payload out := by
  have hn : 4 - announced h ≤ 3 := by unfold announced; omega
  have ea : ∀ m, h.addProtection m = { h with headerByte := h.headerByte ^^^ (m.m0 &&& 0x0f), isProtected := true } := by
    intro m
    unfold LongPacketHeader.addProtection
    rw [hp]; rfl
  constructor
  · intro hs
    unfold sealTail at hs
    obtain ⟨head, e1, s1⟩ := Out.bind_eq_ok hs
    obtain ⟨pp, e2, s2⟩ := Out.bind_eq_ok s1
    obtain ⟨sb, e3, s3⟩ := Out.bind_eq_ok s2
    obtain ⟨m, e4, s4⟩ := Out.bind_eq_ok s3
    obtain ⟨pw, e5, s5⟩ := Out.bind_eq_ok s4
    obtain ⟨head', e6, s6⟩ := Out.bind_eq_ok s5
    rw [localEncrypt_eq hk] at e2
    unfold internalEncryptAes128Gcm at e2
    split at e2
    · cases e2
    rename_i ct tag hseal
    cases e2
    obtain ⟨f1, rfl⟩ := sliceFrom_ok.mp e3
    obtain ⟨g1, r, g2⟩ := (localMask_iff hk _ _).mp e4
    obtain ⟨x1, rfl⟩ := xorPn_ok.mp e5
    rw [ea] at e6
    cases s6
    rw [List.length_drop] at g1
    rw [packetNonce_eq k.iv pn (by omega)] at hseal
    refine ⟨head, head', toBeBytes 8 pn, ct, tag, m.m0, m.m1, m.m2, m.m3, m.m4, r, (longBytes_iff' ..).mp e1, toBeBytes_length _ _, beNat_toBeBytes' 8 pn, x1,
      hseal, by unfold announced at g1 ⊢; omega, g2, (longBytes_iff ..).mp e6, ?_⟩
    simp only [List.append_assoc, maskList]
  · rintro ⟨head, head', nb, ct, tag, m0, m1, m2, m3, m4, r, a1, a2, a3, a4, a5, a6, a7, a8, rfl⟩
    have hnb : nb = toBeBytes 8 pn := beNat_inj (by rw [a2, toBeBytes_length]) (by rw [a3, beNat_toBeBytes' 8 pn])
    rw [hnb, ← packetNonce_eq k.iv pn (by omega)] at a5
    unfold sealTail
    rw [(longBytes_iff' ..).mpr a1, Out.ok_bind, localEncrypt_eq hk]
    unfold internalEncryptAes128Gcm
    have hl : 4 - announced h + 16 ≤ (ct ++ tag).length := by
      have := (hP.seal_length _ _ _ _ _ _ a5).2
      unfold announced at a6 ⊢
      omega
    have e3 : sliceFrom (ct ++ tag) (4 - announced h) = .ok ((ct ++ tag).drop (4 - announced h)) := sliceFrom_ok.mpr ⟨by omega, rfl⟩
    have e4 := (localMask_iff hk ((ct ++ tag).drop (4 - announced h)) ⟨m0, m1, m2, m3, m4⟩).mpr ⟨by rw [List.length_drop]; omega, r, a7⟩
    have e6 := (longBytes_iff h (h.headerByte ^^^ (m0 &&& 0x0f)) true head').mpr a8
    have e5 := xorPn_ok (m := ⟨m0, m1, m2, m3, m4⟩).mpr ⟨a4, rfl⟩
    rw [← ea ⟨m0, m1, m2, m3, m4⟩] at e6
    rw [a5]
    simp only [Out.ok_bind, e3, e4, e5, e6]
    show Out.ok _ = Out.ok _
    simp only [List.append_assoc, maskList]

/-- How it ends. -/
theorem sealTail_ends {P : Prims} {c : Connection} {sp : PnSpace} {k : Keys} (hP : PrimLaws P) (hk : c.localSecrets sp = .ok (secretsOf P k))
    (hkl : KeyLens k) {h : LongPacketHeader} (hp : h.isProtected = false) {mid pnB : Bytes} {pn : U64} {payload : Bytes} (hpl : payload.length < 2 ^ 30)
    (hmid : (mid ++ pnB).length < 2 ^ 29) :
    kindOf (sealTail c sp h mid pnB pn (announced h) payload) = writeKind true h pnB.length payload.length := by
  unfold writeKind
  rw [hp]
  have hn : 4 - announced h ≤ 3 := by unfold announced; omega
  have ea : ∀ m, h.addProtection m = { h with headerByte := h.headerByte ^^^ (m.m0 &&& 0x0f), isProtected := true } := by
    intro m
    unfold LongPacketHeader.addProtection
    rw [hp]; rfl
  simp only [Bool.false_eq_true, if_false, Bool.not_true]
  by_cases hid : 20 < h.destinationConnectionIdLength.toNat ∨ 20 < h.sourceConnectionIdLength.toNat
  · rw [if_pos hid]
    have : kindOf h.toBytes = .panic := by
      unfold LongPacketHeader.toBytes
      by_cases hd : 20 < h.destinationConnectionIdLength.toNat
      · have := toVarBytes_panic h.destinationConnectionId _ hd
        cases ht : h.destinationConnectionId.toVarBytes h.destinationConnectionIdLength.toNat <;> rw [ht] at this <;> first | rfl | cases this
      · obtain ⟨d, e1, -⟩ := toVarBytes_spec h.destinationConnectionId _ (Nat.not_lt.mp hd)
        rw [e1, Out.ok_bind]
        have := toVarBytes_panic h.sourceConnectionId _ (hid.resolve_left hd)
        cases ht : h.sourceConnectionId.toVarBytes h.sourceConnectionIdLength.toNat <;> rw [ht] at this <;> first | rfl | cases this
    unfold sealTail
    cases ht : h.toBytes <;> rw [ht] at this <;> first | rfl | cases this
  · rw [if_neg hid]
    obtain ⟨d, e1, l1, -⟩ := toVarBytes_spec h.destinationConnectionId h.destinationConnectionIdLength.toNat (by omega)
    obtain ⟨s, e2, l2, -⟩ := toVarBytes_spec h.sourceConnectionId h.sourceConnectionIdLength.toNat (by omega)
    have hb : ∀ x pr, LongPacketHeader.toBytes { h with headerByte := x, isProtected := pr } =
        .ok ([x] ++ toBeBytes 4 h.version ++ [h.destinationConnectionIdLength] ++ d ++ [h.sourceConnectionIdLength] ++ s) := by
      intro x pr
      unfold LongPacketHeader.toBytes
      rw [e1, Out.ok_bind, e2, Out.ok_bind]
      rfl
    have hb0 := hb h.headerByte h.isProtected
    rw [show ({ h with headerByte := h.headerByte, isProtected := h.isProtected } : LongPacketHeader) = h from rfl] at hb0
    generalize hh : [h.headerByte] ++ toBeBytes 4 h.version ++ [h.destinationConnectionIdLength] ++ d ++ [h.sourceConnectionIdLength] ++ s = head at hb0
    have hhl : head.length ≤ 47 := by
      rw [← hh]
      simp only [List.length_append, toBeBytes_length, List.length_cons, List.length_nil]
      omega
    rw [List.length_append] at hmid
    obtain ⟨ct, tag, hseal⟩ := hP.sealing k.key (packetNonce k.iv pn) (head ++ mid ++ pnB) payload hkl.2.2
      (by rw [packetNonce_length]; exact hkl.2.1) (by rw [List.length_append, List.length_append]; omega) hpl
    obtain ⟨lc, lt⟩ := hP.seal_length _ _ _ _ _ _ hseal
    have hlen : (ct ++ tag).length = payload.length + 16 := by rw [List.length_append, lc, lt]
    have e3 : sliceFrom (ct ++ tag) (4 - announced h) = .ok ((ct ++ tag).drop (4 - announced h)) := sliceFrom_ok.mpr ⟨by omega, rfl⟩
    unfold sealTail
    rw [hb0, Out.ok_bind, localEncrypt_eq hk]
    unfold internalEncryptAes128Gcm
    rw [hseal]
    simp only [Out.ok_bind, e3]
    by_cases hs : announced h + payload.length < 4
    · rw [if_pos hs]
      have hm : kindOf (c.getLocalHpMask sp (makeResultStream ((ct ++ tag).drop (4 - announced h)))).1 = .err := by
        rw [getLocalHpMask_eq hk]
        unfold Secrets.getHeaderProtectionMask
        have hshort : ((ct ++ tag).drop (4 - announced h)).length < (secretsOf P k).cipherSuite.sampleLen := by
          show _ < 16
          rw [List.length_drop]
          omega
        have := varBytes_few hshort
        rcases hv : varBytesFromStream (secretsOf P k).cipherSuite.sampleLen (makeResultStream ((ct ++ tag).drop (4 - announced h))) with ⟨o, s'⟩
        rw [hv] at this
        cases o with
        | ok a => cases this
        | err e => rw [Rd.bind_err hv]; rfl
        | panic w => cases this
      cases hg : (c.getLocalHpMask sp (makeResultStream ((ct ++ tag).drop (4 - announced h)))).1 <;> rw [hg] at hm <;> first | rfl | cases hm
    · rw [if_neg hs]
      have h16 : 16 ≤ ((ct ++ tag).drop (4 - announced h)).length := by
        rw [List.length_drop]
        unfold announced at hs ⊢
        omega
      obtain ⟨m, hm⟩ := hpMask_noPanic hP hkl.1 (s := ((ct ++ tag).drop (4 - announced h)).take 16) (by rw [List.length_take]; omega)
      have hmask := (localMask_iff hk ((ct ++ tag).drop (4 - announced h)) m).mpr ⟨h16, hpMask_ok.mp hm⟩
      simp only [hmask, Out.ok_bind]
      by_cases h4 : 4 < pnB.length
      · rw [if_pos h4]
        unfold xorPnProtection
        rw [if_pos h4]
        rfl
      · rw [if_neg h4, xorPn_ok.mpr ⟨Nat.not_lt.mp h4, rfl⟩, Out.ok_bind, ea, hb]
        rfl

theorem midLen_iff {payload : Nat} (h : LongPacketHeader) (hs : payload + 20 < 2 ^ 64) (b : Bytes) :
    encodeVarInt (BitVec.ofNat 64 (16 + payload + announced h)) = .ok b ↔ ShortVarInt b (16 + payload + announced h) := by
  rw [encodeVarInt_iff, ofNat64_toNat (by unfold announced; omega)]

theorem pnLength_ok {h : LongPacketHeader} (hp : h.isProtected = false) : h.packetNumberLength = .ok (announced h) := pnLength_eq.mpr ⟨hp, rfl⟩

/-- **C128**: the Initial packets that are written, and as which bytes, exactly: any packet value, on any connection with Initial keys. (`2 ^ 64` is the size of
the address space.) -/
theorem C128_initial (P : Prims) (hP : PrimLaws P) (c : Connection) (k : Keys) (hkl : KeyLens k) (hk : c.localSecrets .initial = .ok (secretsOf P k))
    (p : PacketInitial) (hs : ∀ payload, serializeFrames p.packetPayload false = .ok payload → payload.length + 20 < 2 ^ 64) (ht : p.token.length < 2 ^ 64)
    (out : Bytes) :
    p.serialize c = .ok out ↔ ∃ payload mid, serializeFrames p.packetPayload false = .ok payload ∧ p.header.isProtected = false ∧
      MidBytes (some p.token) (16 + payload.length + announced p.header) mid ∧
      WrittenLong P k p.header mid p.packetNumberBytes p.packetNumber.toNat payload out := by
  rw [initial_serialize_eq]
  constructor
  · intro h
    obtain ⟨payload, e1, h1⟩ := Out.bind_eq_ok h
    obtain ⟨n, e2, h2⟩ := Out.bind_eq_ok h1
    obtain ⟨hp, hn⟩ := pnLength_eq.mp e2
    subst hn
    rw [protectedLen_eq hk, Out.ok_bind] at h2
    obtain ⟨lb, e3, h3⟩ := Out.bind_eq_ok h2
    obtain ⟨tl, e4, h4⟩ := Out.bind_eq_ok h3
    rw [encodeVarInt_iff, ofNat64_toNat ht] at e4
    exact ⟨payload, _, e1, hp, ⟨lb, (midLen_iff p.header (hs _ e1) lb).mp e3, tl, e4, rfl⟩, (sealTail_iff hP hk hkl.2.1 hp ..).mp h4⟩
  · rintro ⟨payload, mid, e1, hp, ⟨lb, e3, tl, e4, rfl⟩, h4⟩
    have e4' : encodeVarInt (BitVec.ofNat 64 p.token.length) = .ok tl := by rw [encodeVarInt_iff, ofNat64_toNat ht]; exact e4
    rw [e1, Out.ok_bind, pnLength_ok hp, Out.ok_bind, protectedLen_eq hk, Out.ok_bind, (midLen_iff p.header (hs _ e1) lb).mpr e3, Out.ok_bind, e4', Out.ok_bind]
    exact (sealTail_iff hP hk hkl.2.1 hp ..).mpr h4

/-- **C128** for Handshake packets, which have no token. -/
theorem C128_handshake (P : Prims) (hP : PrimLaws P) (c : Connection) (k : Keys) (hkl : KeyLens k) (hk : c.localSecrets .handshake = .ok (secretsOf P k))
    (p : PacketHandshake) (hs : ∀ payload, serializeFrames p.packetPayload false = .ok payload → payload.length + 20 < 2 ^ 64) (out : Bytes) :
    p.serialize c = .ok out ↔ ∃ payload mid, serializeFrames p.packetPayload false = .ok payload ∧ p.header.isProtected = false ∧
      MidBytes none (16 + payload.length + announced p.header) mid ∧
      WrittenLong P k p.header mid p.packetNumberBytes p.packetNumber.toNat payload out := by
  rw [handshake_serialize_eq]
  constructor
  · intro h
    obtain ⟨payload, e1, h1⟩ := Out.bind_eq_ok h
    obtain ⟨n, e2, h2⟩ := Out.bind_eq_ok h1
    obtain ⟨hp, hn⟩ := pnLength_eq.mp e2
    subst hn
    rw [protectedLen_eq hk, Out.ok_bind] at h2
    obtain ⟨lb, e3, h4⟩ := Out.bind_eq_ok h2
    exact ⟨payload, _, e1, hp, ⟨lb, (midLen_iff p.header (hs _ e1) lb).mp e3, rfl⟩, (sealTail_iff hP hk hkl.2.1 hp ..).mp h4⟩
  · rintro ⟨payload, mid, e1, hp, ⟨lb, e3, rfl⟩, h4⟩
    rw [e1, Out.ok_bind, pnLength_ok hp, Out.ok_bind, protectedLen_eq hk, Out.ok_bind, (midLen_iff p.header (hs _ e1) _).mpr e3, Out.ok_bind]
    exact (sealTail_iff hP hk hkl.2.1 hp ..).mpr h4

/-- The keys of a space, or none. -/
theorem noKeys_len {c : Connection} {sp : PnSpace} {e : Error} (hk : c.localSecrets sp = .err e) (n : Nat) : c.getLocalProtectedPayloadLen sp n = .err e := by
  unfold Connection.getLocalProtectedPayloadLen
  rw [hk]
  rfl
theorem kindOf_err_bind {α β : Type} {o : Out α} (f : α → Out β) (h : kindOf o = .err) : kindOf (o >>= f) = .err := by
  cases o with
  | ok a => cases h
  | err e => rfl
  | panic w => cases h
theorem pnLength_protected {h : LongPacketHeader} (hp : h.isProtected = true) : kindOf h.packetNumberLength = .err := by
  unfold LongPacketHeader.packetNumberLength
  rw [hp]
  rfl

/-- **C128**: and how writing ends for the packets that are not written: the frames come first. -/
theorem C128_frames_first (c : Connection) :
    (∀ p : PacketInitial, framesKind p.packetPayload ≠ .ok → kindOf (p.serialize c) = framesKind p.packetPayload) ∧
    (∀ p : PacketHandshake, framesKind p.packetPayload ≠ .ok → kindOf (p.serialize c) = framesKind p.packetPayload) := by
  constructor <;> intro p h <;> rw [← C114_frames] at h ⊢ <;> first | rw [initial_serialize_eq] | rw [handshake_serialize_eq]
  all_goals
    cases hf : serializeFrames p.packetPayload false with
    | ok a => rw [hf] at h; exact absurd rfl h
    | err e => rfl
    | panic w => rfl

/-- **C128**: and then the rest, with keys. -/
theorem C128_initial_ends (P : Prims) (hP : PrimLaws P) (c : Connection) (k : Keys) (hkl : KeyLens k) (hk : c.localSecrets .initial = .ok (secretsOf P k))
    (p : PacketInitial) (payload : Bytes) (hf : serializeFrames p.packetPayload false = .ok payload) (hs : payload.length < 2 ^ 30)
    (ht : p.token.length < 2 ^ 28) (hn : p.packetNumberBytes.length < 2 ^ 27) :
    kindOf (p.serialize c) = writeKind true p.header p.packetNumberBytes.length payload.length := by
  rw [initial_serialize_eq, hf, Out.ok_bind]
  cases hp : p.header.isProtected with
  | true =>
    rw [kindOf_err_bind _ (pnLength_protected hp)]
    unfold writeKind
    rw [hp]; rfl
  | false =>
    obtain ⟨lb, e3⟩ := encodeVarInt_ok (BitVec.ofNat 64 (16 + payload.length + announced p.header))
      (by rw [ofNat64_toNat (by unfold announced; omega)]; unfold announced; omega)
    obtain ⟨tl, e4⟩ := encodeVarInt_ok (BitVec.ofNat 64 p.token.length) (by rw [ofNat64_toNat (by omega)]; omega)
    have l3 := isVarInt_len (encodeVarInt_isVarInt e3)
    have l4 := isVarInt_len (encodeVarInt_isVarInt e4)
    rw [pnLength_ok hp, Out.ok_bind, protectedLen_eq hk, Out.ok_bind, e3, Out.ok_bind, e4, Out.ok_bind]
    exact sealTail_ends hP hk hkl hp hs (by simp only [List.length_append]; omega)

/-- **C128** for Handshake packets. -/
theorem C128_handshake_ends (P : Prims) (hP : PrimLaws P) (c : Connection) (k : Keys) (hkl : KeyLens k) (hk : c.localSecrets .handshake = .ok (secretsOf P k))
    (p : PacketHandshake) (payload : Bytes) (hf : serializeFrames p.packetPayload false = .ok payload) (hs : payload.length < 2 ^ 30)
    (hn : p.packetNumberBytes.length < 2 ^ 27) :
    kindOf (p.serialize c) = writeKind true p.header p.packetNumberBytes.length payload.length := by
  rw [handshake_serialize_eq, hf, Out.ok_bind]
  cases hp : p.header.isProtected with
  | true =>
    rw [kindOf_err_bind _ (pnLength_protected hp)]
    unfold writeKind
    rw [hp]; rfl
  | false =>
    obtain ⟨lb, e3⟩ := encodeVarInt_ok (BitVec.ofNat 64 (16 + payload.length + announced p.header))
      (by rw [ofNat64_toNat (by unfold announced; omega)]; unfold announced; omega)
    have l3 := isVarInt_len (encodeVarInt_isVarInt e3)
    rw [pnLength_ok hp, Out.ok_bind, protectedLen_eq hk, Out.ok_bind, e3, Out.ok_bind]
    exact sealTail_ends hP hk hkl hp hs (by simp only [List.length_append]; omega)

/-- **C128**: and without keys. -/
theorem C128_no_keys (c : Connection) (e : Error) (n : Nat) :
    (∀ (p : PacketInitial) payload, c.localSecrets .initial = .err e → serializeFrames p.packetPayload false = .ok payload →
      kindOf (p.serialize c) = writeKind false p.header n payload.length) ∧
    (∀ (p : PacketHandshake) payload, c.localSecrets .handshake = .err e → serializeFrames p.packetPayload false = .ok payload →
      kindOf (p.serialize c) = writeKind false p.header n payload.length) := by
  have hw : ∀ h m, writeKind false h n m = .err := by
    intro h m
    unfold writeKind
    cases h.isProtected <;> rfl
  constructor <;> intro p payload hk hf <;> rw [hw] <;> first | rw [initial_serialize_eq] | rw [handshake_serialize_eq]
  all_goals
    rw [hf, Out.ok_bind]
    cases hp : p.header.isProtected with
    | true => exact kindOf_err_bind _ (pnLength_protected hp)
    | false =>
      rw [pnLength_ok hp, Out.ok_bind, noKeys_len hk]
      rfl

/-- The hypotheses, met: `exConn` has Initial keys and no Handshake keys. -/
theorem exLocal : ∃ k, KeyLens k ∧ exConn.localSecrets .initial = .ok (secretsOf toy k) := by
  obtain ⟨⟨kl, _, l1, _, m1, _⟩, _⟩ := reachable_keys toy_laws exConn_reachable
  exact ⟨kl, l1, m1⟩
/-- Packets of every outcome on `exConn`: an announced length of 2 with 3 payload bytes is written, also if the number has 4 bytes; one byte with a payload of two
is not, nor a number of 5 bytes, nor a protected header; an id length of 21 panics. Nothing is written without keys. -/
def exWrite (n : Nat) (pn : Bytes) (frames : Nat) : PacketInitial := ⟨exHeader n, [9], 1, pn, List.replicate frames .ping⟩
example : kindOf ((exWrite 2 [0, 1] 3).serialize exConn) = .ok ∧ writeKind true (exHeader 2) 2 3 = .ok := by decide +kernel
example : kindOf ((exWrite 2 [0, 0, 0, 1] 3).serialize exConn) = .ok := by decide +kernel
example : kindOf ((exWrite 1 [1] 2).serialize exConn) = .err ∧ writeKind true (exHeader 1) 1 2 = .err := by decide +kernel
example : kindOf ((exWrite 4 [0, 0, 0, 0, 1] 3).serialize exConn) = .err := by decide +kernel
example : kindOf (({ exWrite 4 [0, 0, 0, 1] 3 with header := { exHeader 4 with isProtected := true } }).serialize exConn) = .err := by decide +kernel
example : kindOf (({ exWrite 4 [0, 0, 0, 1] 3 with header := { exHeader 4 with sourceConnectionIdLength := 21 } }).serialize exConn) = .panic := by decide +kernel
example : kindOf ((⟨exHeader 4, [0, 0, 0, 1], 1, [.ping]⟩ : PacketHandshake).serialize exConn) = .err := by decide +kernel

end QuicSea
