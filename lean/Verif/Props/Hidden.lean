import Verif.Props.Shown
/-
C139: what the bytes of a packet show of its number (RFC 9001 section 5.4: header protection hides the packet number).

As in C136 two worlds with different algorithms are compared: what is sent in one world with one number is sent in the other with another number. Someone who sees
the packet and does not know how the algorithms act on it can then not tell which number it has. Here the payload may differ as well.
-/
namespace Spec
open QuicSea

/-- Two values exchanged, all others kept. -/
def exchange [DecidableEq α] (a a' x : α) : α := if x = a then a' else if x = a' then a else x
/-- The bytes of a mask that are for the packet number, changed by `d`. -/
def turn (d : Bytes) : Bytes → Bytes
  | m0 :: m1 :: m2 :: m3 :: m4 :: r => m0 :: (m1 ^^^ d.getD 0 0) :: (m2 ^^^ d.getD 1 0) :: (m3 ^^^ d.getD 2 0) :: (m4 ^^^ d.getD 3 0) :: r
  | o => o
/-- The algorithms `P`, but for an AEAD that takes two nonces with their associated data for each other, and two payloads, and a block cipher that gives
something else for one sample. -/
def retold (P : Prims) (hp sample d : Bytes) (x x' : Bytes × Bytes) (a a' : Bytes) : Prims :=
  { P with
    aesEcb := fun k s => if k = hp ∧ s = sample then (P.aesEcb k s).map (turn d) else P.aesEcb k s
    gcmSeal := fun k iv ad p => P.gcmSeal k (exchange x x' (iv, ad)).1 (exchange x x' (iv, ad)).2 (exchange a a' p)
    gcmOpen := fun k iv ad ct tag => (P.gcmOpen k (exchange x x' (iv, ad)).1 (exchange x x' (iv, ad)).2 ct tag).map (exchange a a') }

/-- The same derivation of keys. -/
def SameKdf (P P' : Prims) : Prop := P'.hkdfExtract = P.hkdfExtract ∧ P'.hkdfExpand = P.hkdfExpand ∧ P'.fromPrkOk = P.fromPrkOk

/-- C139 for given algorithms: a packet with one number and payload could be a packet with any other number whose encoding is as long and any other payload that is
as long, whatever connection with the same ids sends it. -/
def C139For (P : Prims) : Prop :=
  ∀ (bp : Profile) (k : PnSpace → Option Keys) (c c' : Connection), c'.dcid = c.dcid → c'.scid = c.scid →
    ∀ (fs fs' : List Frame) (a a' : Bytes), serializeFrames fs false = .ok a → serializeFrames fs' false = .ok a' → a.length = a'.length →
    ∀ (pn pn' : U64) (b b' : Bytes), b.length = b'.length →
    ((c.getNextPn bp .initial).1 = .ok (pn, b) → (c'.getNextPn bp .initial).1 = .ok (pn', b') → ∀ token, ∃ P', PrimLaws P' ∧ SameKdf P P' ∧
      (emitInitial bp fs token (inWorld P k c)).1 = (emitInitial bp fs' token (inWorld P' k c')).1) ∧
    ((c.getNextPn bp .handshake).1 = .ok (pn, b) → (c'.getNextPn bp .handshake).1 = .ok (pn', b') → ∃ P', PrimLaws P' ∧ SameKdf P P' ∧
      (emitHandshake bp fs (inWorld P k c)).1 = (emitHandshake bp fs' (inWorld P' k c')).1)
/-- C139 as a statement. -/
def C139Statement : Prop := ∀ P, PrimLaws P → C139For P
end Spec

namespace QuicSea
open Spec
variable {P P' : Prims} {bp : Profile}

theorem exchange_exchange [DecidableEq α] (a a' x : α) : exchange a a' (exchange a a' x) = x := by
  unfold exchange
  by_cases h : x = a
  · by_cases h' : a' = a
    · simp [h, h']
    · simp [h, h']
  · by_cases h' : x = a'
    · subst h'
      simp [h]
    · simp [h, h']
theorem exchange_right [DecidableEq α] (a a' : α) : exchange a a' a' = a := by
  unfold exchange
  split
  · next e => exact e
  · rw [if_pos rfl]
theorem exchange_keeps [DecidableEq α] {a a' : α} (f : α → β) (h : f a = f a') (x : α) : f (exchange a a' x) = f x := by
  unfold exchange
  split
  · next e => rw [e, h]
  split
  · next e => rw [e, h]
  rfl

theorem turn_length (d o : Bytes) : (turn d o).length = o.length := by
  unfold turn
  split <;> rfl

theorem retold_laws (hP : PrimLaws P) (hp sample d : Bytes) {x x' : Bytes × Bytes} {a a' : Bytes} (h1 : x.1.length = x'.1.length) (h2 : x.2.length = x'.2.length)
    (h : a.length = a'.length) : PrimLaws (retold P hp sample d x x' a a') where
  extract_length := hP.extract_length
  prk_ok := hP.prk_ok
  expand := hP.expand
  ecb k s hk hs := by
    obtain ⟨o, ho, hl⟩ := hP.ecb k s hk hs
    unfold retold
    dsimp only
    split
    · exact ⟨turn d o, by rw [ho]; rfl, by rw [turn_length]; exact hl⟩
    · exact ⟨o, ho, hl⟩
  sealing k iv ad p hk hi had hp := hP.sealing k _ _ _ hk ((exchange_keeps (fun y => y.1.length) h1 (iv, ad)).trans hi)
    (by have := exchange_keeps (fun y => y.2.length) h2 (iv, ad); dsimp only at this; omega) (by have := exchange_keeps List.length h p; omega)
  seal_length k iv ad p ct tag hs := by
    have := hP.seal_length _ _ _ _ _ _ hs
    rwa [exchange_keeps List.length h] at this
  open_seal k iv ad p ct tag hs := by
    show (P.gcmOpen k _ _ ct tag).map _ = _
    rw [hP.open_seal _ _ _ _ _ _ hs, Option.map_some, exchange_exchange]
  seal_open k iv ad p ct tag ht ho := by
    obtain ⟨q, hq, rfl⟩ := Option.map_eq_some_iff.mp ho
    show P.gcmSeal k _ _ (exchange a a' (exchange a a' q)) = _
    rw [exchange_exchange]
    exact hP.seal_open _ _ _ _ _ _ ht hq

/-- As `turn`, for masks. -/
def turnMask (d : Bytes) (m : Mask) : Mask := ⟨m.m0, m.m1 ^^^ d.getD 0 0, m.m2 ^^^ d.getD 1 0, m.m3 ^^^ d.getD 2 0, m.m4 ^^^ d.getD 3 0⟩

theorem xor_turn {b b' : Bytes} (h : b.length = b'.length) (m : Mask) : xorPnProtection b' (turnMask (b.zipWith (· ^^^ ·) b') m) = xorPnProtection b m := by
  have key : ∀ x y z : U8, y ^^^ (z ^^^ (x ^^^ y)) = x ^^^ z := by
    intro x y z
    rw [← BitVec.xor_assoc z x y, BitVec.xor_comm (z ^^^ x) y, ← BitVec.xor_assoc, BitVec.xor_self, BitVec.zero_xor, BitVec.xor_comm]
  unfold xorPnProtection turnMask
  rw [h]
  split
  · rfl
  · match b, b', h with
    | [], [], _ => rfl
    | [x], [y], _ => simp [key]
    | [x0, x1], [y0, y1], _ => simp [key]
    | [x0, x1, x2], [y0, y1, y2], _ => simp [key]
    | [x0, x1, x2, x3], [y0, y1, y2, y3], _ => simp [key]
    | _ :: _ :: _ :: _ :: _ :: _, _ :: _ :: _ :: _ :: _ :: _, _ => exfalso; simp only [List.length_cons] at *; omega

theorem mask_retold (hp sample d : Bytes) (x x' : Bytes × Bytes) (a a' : Bytes) :
    hpMaskAes128Ecb (retold P hp sample d x x' a a') hp sample = (hpMaskAes128Ecb P hp sample >>= fun m => .ok (turnMask d m)) := by
  unfold hpMaskAes128Ecb retold
  dsimp only
  rw [if_pos ⟨rfl, rfl⟩]
  cases P.aesEcb hp sample with
  | none => rfl
  | some o =>
    rw [Option.map_some]
    match o with
    | [] => rfl
    | [_] => rfl
    | [_, _] => rfl
    | [_, _, _] => rfl
    | [_, _, _, _] => rfl
    | _ :: _ :: _ :: _ :: _ :: _ => rfl

theorem samples (s : Stream) : ∃ smp, ∀ (f g : Bytes → Out Mask), f smp = g smp →
    ((varBytesFromStream 16 s).1 >>= f) = ((varBytesFromStream 16 s).1 >>= g) := by
  cases (varBytesFromStream 16 s).1 with
  | ok v => exact ⟨v, fun f g h => h⟩
  | err e => exact ⟨[], fun f g h => rfl⟩
  | panic w => exact ⟨[], fun f g h => rfl⟩

theorem localMask_some {c : Connection} {sp : PnSpace} {k : Keys} (h : (c.pnInfo sp).localTlsSecrets = some (secretsOf P k)) (s : Stream) :
    (c.getLocalHpMask sp s).1 = ((varBytesFromStream 16 s).1 >>= fun smp => hpMaskAes128Ecb P k.hp smp) := by
  unfold Connection.getLocalHpMask Connection.localSecrets
  rw [h]
  show ((varBytesFromStream 16 >>= fun smp => Rd.lift (hpMaskAes128Ecb P k.hp smp) : Rd Mask) s).1 = _
  rw [Rd.bind_apply]
  rcases varBytesFromStream 16 s with ⟨o, s1⟩
  cases o <;> rfl
theorem localSeal_some {c : Connection} {sp : PnSpace} {k : Keys} (h : (c.pnInfo sp).localTlsSecrets = some (secretsOf P k)) (a ad : Bytes) (pn : U64) :
    c.encryptLocalPayload sp a ad pn = internalEncryptAes128Gcm P k.key (packetNonce k.iv pn) ad a := by
  unfold Connection.encryptLocalPayload Connection.localSecrets
  rw [h]
  rfl

theorem sealTail_hidden (hP : PrimLaws P) {sp : PnSpace} {k : Option Keys} {c : Connection} (hc : (c.pnInfo sp).localTlsSecrets = k.map (secretsOf P)) (hd : LongPacketHeader)
    (mid : Bytes) (n : Nat) {a a' b b' : Bytes} (ha : a.length = a'.length) (hb : b.length = b'.length) (pn pn' : U64) :
    ∃ P', PrimLaws P' ∧ SameKdf P P' ∧ ∀ c' : Connection, (c'.pnInfo sp).localTlsSecrets = k.map (secretsOf P') →
      sealTail c sp hd mid b pn n a = sealTail c' sp hd mid b' pn' n a' := by
  cases k with
  | none =>
    refine ⟨P, hP, ⟨rfl, rfl, rfl⟩, fun c' hc' => ?_⟩
    simp only [sealTail, Connection.encryptLocalPayload, Connection.localSecrets, hc, hc', Option.map_none]
    rfl
  | some k =>
    cases hh : hd.toBytes with
    | err e => exact ⟨P, hP, ⟨rfl, rfl, rfl⟩, fun c' hc' => by unfold sealTail; rw [hh]; rfl⟩
    | panic w => exact ⟨P, hP, ⟨rfl, rfl, rfl⟩, fun c' hc' => by unfold sealTail; rw [hh]; rfl⟩
    | ok hbs =>
      obtain ⟨out, hout⟩ : ∃ o, internalEncryptAes128Gcm P k.key (packetNonce k.iv pn) (hbs ++ mid ++ b) a = o := ⟨_, rfl⟩
      obtain ⟨sb, hsb⟩ : ∃ o, (out >>= fun o => sliceFrom o (4 - n)) = o := ⟨_, rfl⟩
      obtain ⟨smp, hsmp⟩ := samples (makeResultStream (match sb with | .ok s => s | _ => []))
      refine ⟨retold P k.hp smp (b.zipWith (· ^^^ ·) b') (packetNonce k.iv pn, hbs ++ mid ++ b) (packetNonce k.iv pn', hbs ++ mid ++ b') a a',
        retold_laws hP _ _ _ (by simp only [packetNonce_length]) (by simp only [List.length_append]; omega) ha, ⟨rfl, rfl, rfl⟩, fun c' hc' => ?_⟩
      have e1 : internalEncryptAes128Gcm (retold P k.hp smp (b.zipWith (· ^^^ ·) b') (packetNonce k.iv pn, hbs ++ mid ++ b) (packetNonce k.iv pn', hbs ++ mid ++ b') a a') k.key
          (packetNonce k.iv pn') (hbs ++ mid ++ b') a' = out := by
        rw [← hout]
        unfold internalEncryptAes128Gcm retold
        dsimp only
        rw [exchange_right, exchange_right]
      unfold sealTail
      rw [hh, Out.ok_bind, Out.ok_bind, localSeal_some hc, localSeal_some hc', hout, e1]
      cases out with
      | err e => rfl
      | panic w => rfl
      | ok o =>
        rw [Out.ok_bind] at hsb
        rw [Out.ok_bind, Out.ok_bind, hsb]
        cases sb with
        | err e => rfl
        | panic w => rfl
        | ok s =>
          rw [Out.ok_bind, Out.ok_bind, localMask_some hc, localMask_some hc']
          dsimp only at hsmp
          rw [hsmp (fun v => hpMaskAes128Ecb (retold P k.hp smp (b.zipWith (· ^^^ ·) b') (packetNonce k.iv pn, hbs ++ mid ++ b) (packetNonce k.iv pn', hbs ++ mid ++ b') a a') k.hp v)
            (fun v => hpMaskAes128Ecb P k.hp v >>= fun m => .ok (turnMask (b.zipWith (· ^^^ ·) b') m)) (mask_retold ..)]
          cases (varBytesFromStream 16 (makeResultStream s)).1 with
          | err e => rfl
          | panic w => rfl
          | ok v =>
            rw [Out.ok_bind, Out.ok_bind]
            cases hpMaskAes128Ecb P k.hp v with
            | err e => rfl
            | panic w => rfl
            | ok m =>
              rw [Out.ok_bind, Out.ok_bind, Out.ok_bind, xor_turn hb]
              rfl

theorem initial_hidden (hP : PrimLaws P) (k : PnSpace → Option Keys) (c c' : Connection) {p p' : PacketInitial} (h1 : p'.header = p.header) (h2 : p'.token = p.token)
    (h3 : p.packetNumberBytes.length = p'.packetNumberBytes.length) {a a' : Bytes} (ha : serializeFrames p.packetPayload false = .ok a)
    (ha' : serializeFrames p'.packetPayload false = .ok a') (hl : a.length = a'.length) :
    ∃ P', PrimLaws P' ∧ SameKdf P P' ∧ p.serialize (inWorld P k c) = p'.serialize (inWorld P' k c') := by
  have len : ∀ (P : Prims) (c : Connection) (n : Nat), (inWorld P k c).getLocalProtectedPayloadLen .initial n =
      (match k .initial with | some _ => .ok (16 + n) | none => .err (.internalError "attempted to retrieve unset local tls secrets")) := by
    intro P c n
    unfold Connection.getLocalProtectedPayloadLen Connection.localSecrets inWorld Connection.pnInfo
    dsimp only
    cases k .initial <;> rfl
  cases e1 : p.header.packetNumberLength with
  | err e => exact ⟨P, hP, ⟨rfl, rfl, rfl⟩, by rw [initial_serialize_eq, initial_serialize_eq, ha, ha', h1, e1]; rfl⟩
  | panic w => exact ⟨P, hP, ⟨rfl, rfl, rfl⟩, by rw [initial_serialize_eq, initial_serialize_eq, ha, ha', h1, e1]; rfl⟩
  | ok n =>
    cases e2 : (inWorld P k c).getLocalProtectedPayloadLen .initial a'.length with
    | err e =>
      refine ⟨P, hP, ⟨rfl, rfl, rfl⟩, ?_⟩
      have e3 := e2
      rw [len] at e3
      simp only [initial_serialize_eq, ha, ha', h1, e1, Out.ok_bind, len, hl, e3]
      rfl
    | panic e =>
      refine ⟨P, hP, ⟨rfl, rfl, rfl⟩, ?_⟩
      have e3 := e2
      rw [len] at e3
      simp only [initial_serialize_eq, ha, ha', h1, e1, Out.ok_bind, len, hl, e3]
      rfl
    | ok l =>
      rw [len] at e2
      cases e3 : encodeVarInt (BitVec.ofNat 64 (l + n)) with
      | err e =>
        refine ⟨P, hP, ⟨rfl, rfl, rfl⟩, ?_⟩
        simp only [initial_serialize_eq, ha, ha', h1, e1, Out.ok_bind, len, hl, e2, e3]
        rfl
      | panic e =>
        refine ⟨P, hP, ⟨rfl, rfl, rfl⟩, ?_⟩
        simp only [initial_serialize_eq, ha, ha', h1, e1, Out.ok_bind, len, hl, e2, e3]
        rfl
      | ok lb =>
        cases e4 : encodeVarInt (BitVec.ofNat 64 p.token.length) with
        | err e =>
          refine ⟨P, hP, ⟨rfl, rfl, rfl⟩, ?_⟩
          simp only [initial_serialize_eq, ha, ha', h1, h2, e1, Out.ok_bind, len, hl, e2, e3, e4]
          rfl
        | panic e =>
          refine ⟨P, hP, ⟨rfl, rfl, rfl⟩, ?_⟩
          simp only [initial_serialize_eq, ha, ha', h1, h2, e1, Out.ok_bind, len, hl, e2, e3, e4]
          rfl
        | ok tb =>
          obtain ⟨P', g1, g2, g3⟩ := sealTail_hidden hP (sp := .initial) (k := k .initial) (c := inWorld P k c) rfl p.header (tb ++ p.token ++ lb) n hl h3
            p.packetNumber p'.packetNumber
          refine ⟨P', g1, g2, ?_⟩
          simp only [initial_serialize_eq, ha, ha', h1, h2, e1, Out.ok_bind, len, hl, e2, e3, e4]
          exact g3 (inWorld P' k c') rfl

theorem handshake_hidden (hP : PrimLaws P) (k : PnSpace → Option Keys) (c c' : Connection) {p p' : PacketHandshake} (h1 : p'.header = p.header)
    (h3 : p.packetNumberBytes.length = p'.packetNumberBytes.length) {a a' : Bytes} (ha : serializeFrames p.packetPayload false = .ok a)
    (ha' : serializeFrames p'.packetPayload false = .ok a') (hl : a.length = a'.length) :
    ∃ P', PrimLaws P' ∧ SameKdf P P' ∧ p.serialize (inWorld P k c) = p'.serialize (inWorld P' k c') := by
  have len : ∀ (P : Prims) (c : Connection) (n : Nat), (inWorld P k c).getLocalProtectedPayloadLen .handshake n =
      (match k .handshake with | some _ => .ok (16 + n) | none => .err (.internalError "attempted to retrieve unset local tls secrets")) := by
    intro P c n
    unfold Connection.getLocalProtectedPayloadLen Connection.localSecrets inWorld Connection.pnInfo
    dsimp only
    cases k .handshake <;> rfl
  cases e1 : p.header.packetNumberLength with
  | err e => exact ⟨P, hP, ⟨rfl, rfl, rfl⟩, by rw [handshake_serialize_eq, handshake_serialize_eq, ha, ha', h1, e1]; rfl⟩
  | panic w => exact ⟨P, hP, ⟨rfl, rfl, rfl⟩, by rw [handshake_serialize_eq, handshake_serialize_eq, ha, ha', h1, e1]; rfl⟩
  | ok n =>
    cases e2 : (inWorld P k c).getLocalProtectedPayloadLen .handshake a'.length with
    | err e =>
      refine ⟨P, hP, ⟨rfl, rfl, rfl⟩, ?_⟩
      have e3 := e2
      rw [len] at e3
      simp only [handshake_serialize_eq, ha, ha', h1, e1, Out.ok_bind, len, hl, e3]
      rfl
    | panic e =>
      refine ⟨P, hP, ⟨rfl, rfl, rfl⟩, ?_⟩
      have e3 := e2
      rw [len] at e3
      simp only [handshake_serialize_eq, ha, ha', h1, e1, Out.ok_bind, len, hl, e3]
      rfl
    | ok l =>
      rw [len] at e2
      cases e3 : encodeVarInt (BitVec.ofNat 64 (l + n)) with
      | err e =>
        refine ⟨P, hP, ⟨rfl, rfl, rfl⟩, ?_⟩
        simp only [handshake_serialize_eq, ha, ha', h1, e1, Out.ok_bind, len, hl, e2, e3]
        rfl
      | panic e =>
        refine ⟨P, hP, ⟨rfl, rfl, rfl⟩, ?_⟩
        simp only [handshake_serialize_eq, ha, ha', h1, e1, Out.ok_bind, len, hl, e2, e3]
        rfl
      | ok lb =>
        obtain ⟨P', g1, g2, g3⟩ := sealTail_hidden hP (sp := .handshake) (k := k .handshake) (c := inWorld P k c) rfl p.header lb n hl h3 p.packetNumber p'.packetNumber
        refine ⟨P', g1, g2, ?_⟩
        simp only [handshake_serialize_eq, ha, ha', h1, e1, Out.ok_bind, len, hl, e2, e3]
        exact g3 (inWorld P' k c') rfl

/-- **C139**: what is sent shows of the number only how long its encoding is, and of the payload only how long it is. -/
theorem C139_all : C139Statement := by
  intro P hP bp k c c' hd hs fs fs' a a' ha ha' hl pn pn' b b' hb
  have next : ∀ (P : Prims) (c : Connection) (sp : PnSpace), (inWorld P k c).getNextPn bp sp = ((c.getNextPn bp sp).1, inWorld P k (c.getNextPn bp sp).2) := by
    intro P c sp
    cases sp <;> (unfold Connection.getNextPn inWorld Connection.pnInfo Connection.setPnInfo; dsimp only) <;> split <;> rfl
  have ids : ∀ (c : Connection) (sp : PnSpace), (c.getNextPn bp sp).2.version = c.version ∧ (c.getNextPn bp sp).2.dcid = c.dcid ∧ (c.getNextPn bp sp).2.scid = c.scid := by
    intro c sp
    rcases getNextPn_conn bp c sp with e | e
    · rw [e]; exact ⟨rfl, rfl, rfl⟩
    · rw [e]; cases sp <;> exact ⟨rfl, rfl, rfl⟩
  have hdr : ∀ (P P' : Prims) (sp : PnSpace) (x : U8), LongPacketHeader.fromConnection (inWorld P' k (c'.getNextPn bp sp).2) x =
      LongPacketHeader.fromConnection (inWorld P k (c.getNextPn bp sp).2) x := by
    intro P P' sp x
    obtain ⟨i1, i2, i3⟩ := ids c sp
    obtain ⟨-, j2, j3⟩ := ids c' sp
    unfold LongPacketHeader.fromConnection Connection.getDcid Connection.getScid Connection.getVersionField inWorld
    simp only [i1, i2, i3, j2, j3, hd, hs]
  constructor
  · intro e e' token
    cases hf : LongPacketHeader.fromConnection (inWorld P k (c.getNextPn bp .initial).2) (PacketInitial.newHeaderByte (BitVec.ofNat 8 b'.length - 1)) with
    | err w =>
      refine ⟨P, hP, ⟨rfl, rfl, rfl⟩, ?_⟩
      unfold emitInitial PacketInitial.new
      simp only [next, e, e', hb, hdr P, hf]
      by_cases q : ¬ (0 < BitVec.ofNat 8 b'.length ∧ BitVec.ofNat 8 b'.length ≤ 4)
      · rw [if_pos q, if_pos q]
      · rw [if_neg q, if_neg q]
        rfl
    | panic w =>
      refine ⟨P, hP, ⟨rfl, rfl, rfl⟩, ?_⟩
      unfold emitInitial PacketInitial.new
      simp only [next, e, e', hb, hdr P, hf]
      by_cases q : ¬ (0 < BitVec.ofNat 8 b'.length ∧ BitVec.ofNat 8 b'.length ≤ 4)
      · rw [if_pos q, if_pos q]
      · rw [if_neg q, if_neg q]
        rfl
    | ok h =>
      obtain ⟨P', g1, g2, g3⟩ := initial_hidden hP k (c.getNextPn bp .initial).2 (c'.getNextPn bp .initial).2 (p := ⟨h, token.getD [], pn, b, fs⟩)
        (p' := ⟨h, token.getD [], pn', b', fs'⟩) rfl rfl hb ha ha' hl
      refine ⟨P', g1, g2, ?_⟩
      unfold emitInitial PacketInitial.new
      simp only [next, e, e', hb, hdr P P', hf]
      by_cases q : ¬ (0 < BitVec.ofNat 8 b'.length ∧ BitVec.ofNat 8 b'.length ≤ 4)
      · rw [if_pos q, if_pos q]
      · rw [if_neg q, if_neg q]
        exact g3
  · intro e e'
    cases hf : LongPacketHeader.fromConnection (inWorld P k (c.getNextPn bp .handshake).2) (PacketHandshake.newHeaderByte (BitVec.ofNat 8 b'.length - 1)) with
    | err w =>
      refine ⟨P, hP, ⟨rfl, rfl, rfl⟩, ?_⟩
      unfold emitHandshake PacketHandshake.new
      simp only [next, e, e', hb, hdr P, hf]
      by_cases q : ¬ (0 < BitVec.ofNat 8 b'.length ∧ BitVec.ofNat 8 b'.length ≤ 4)
      · rw [if_pos q, if_pos q]
      · rw [if_neg q, if_neg q]
        rfl
    | panic w =>
      refine ⟨P, hP, ⟨rfl, rfl, rfl⟩, ?_⟩
      unfold emitHandshake PacketHandshake.new
      simp only [next, e, e', hb, hdr P, hf]
      by_cases q : ¬ (0 < BitVec.ofNat 8 b'.length ∧ BitVec.ofNat 8 b'.length ≤ 4)
      · rw [if_pos q, if_pos q]
      · rw [if_neg q, if_neg q]
        rfl
    | ok h =>
      obtain ⟨P', g1, g2, g3⟩ := handshake_hidden hP k (c.getNextPn bp .handshake).2 (c'.getNextPn bp .handshake).2 (p := ⟨h, b, pn, fs⟩)
        (p' := ⟨h, b', pn', fs'⟩) rfl hb ha ha' hl
      refine ⟨P', g1, g2, ?_⟩
      unfold emitHandshake PacketHandshake.new
      simp only [next, e, e', hb, hdr P P', hf]
      by_cases q : ¬ (0 < BitVec.ofNat 8 b'.length ∧ BitVec.ofNat 8 b'.length ≤ 4)
      · rw [if_pos q, if_pos q]
      · rw [if_neg q, if_neg q]
        exact g3

/-! A PING with two PADDING frames and number 1, and two PADDING frames about a PING and number 78: in the toy world two packets, with other algorithms one. -/
def exHiddenLater : Connection := { exTwin with initialPnInfo := { PnInfo.new with nextPn := 77 }, handshakePnInfo := { PnInfo.new with nextPn := 77 } }
example : (∃ P', PrimLaws P' ∧ SameKdf toy P' ∧ (emitInitial .debug exTwinA none (inWorld toy (fun _ => some exTwinKeys) exTwin)).1
      = (emitInitial .debug exTwinB none (inWorld P' (fun _ => some exTwinKeys) exHiddenLater)).1) ∧
    (∃ P', PrimLaws P' ∧ SameKdf toy P' ∧ (emitHandshake .debug exTwinA (inWorld toy (fun _ => some exTwinKeys) exTwin)).1
      = (emitHandshake .debug exTwinB (inWorld P' (fun _ => some exTwinKeys) exHiddenLater)).1) ∧
    (∃ b, (emitInitial .debug exTwinA none (inWorld toy (fun _ => some exTwinKeys) exTwin)).1 = .ok b ∧ b.length = 35) ∧
    (emitInitial .debug exTwinA none (inWorld toy (fun _ => some exTwinKeys) exTwin)).1
      ≠ (emitInitial .debug exTwinB none (inWorld toy (fun _ => some exTwinKeys) exHiddenLater)).1 := by
  have h := C139_all toy toy_laws .debug (fun _ => some exTwinKeys) exTwin exHiddenLater rfl rfl exTwinA exTwinB [1, 0, 0] [0, 1, 0] (by decide +kernel)
    (by decide +kernel) rfl 1 78
  exact ⟨(h [0, 0, 0, 1] [0, 0, 0, 78] rfl).1 (by decide +kernel) (by decide +kernel) none, (h [0, 0, 0, 1] [0, 0, 0, 78] rfl).2 (by decide +kernel) (by decide +kernel), ⟨_, rfl, by decide +kernel⟩,
    by decide +kernel⟩

end QuicSea
