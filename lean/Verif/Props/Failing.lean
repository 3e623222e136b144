import Verif.Props.Every
import Verif.Model.Routing
/-
C138: failures of the cryptographic libraries.

Elsewhere the primitives are assumed to answer where they can (`PrimLaws`). Here nothing is assumed: any of them may fail on any input, for want of memory or because
a provider does not offer the algorithm.
-/
namespace Spec
open QuicSea

/-- `P'` answers as `P` does, where it answers. -/
structure FailsMore (P' P : Prims) : Prop where
  extract : ∀ salt ikm, P'.hkdfExtract salt ikm = P.hkdfExtract salt ikm
  prk : ∀ k, P'.fromPrkOk k = true → P.fromPrkOk k = true
  expand : ∀ prk info n o, P'.hkdfExpand prk info n = some o → P.hkdfExpand prk info n = some o
  ecb : ∀ k s o, P'.aesEcb k s = some o → P.aesEcb k s = some o
  sealing : ∀ k iv ad p o, P'.gcmSeal k iv ad p = some o → P.gcmSeal k iv ad p = some o
  opening : ∀ k iv ad ct tag o, P'.gcmOpen k iv ad ct tag = some o → P.gcmOpen k iv ad ct tag = some o

/-- The same connection with the one and with the other libraries. -/
def Replaced (P' P : Prims) (c' c : Connection) : Prop :=
  c'.version = c.version ∧ c'.dcid = c.dcid ∧ c'.scid = c.scid ∧
  ∀ sp, (c'.pnInfo sp).largestRemoteAck = (c.pnInfo sp).largestRemoteAck ∧ (c'.pnInfo sp).largestLocalAck = (c.pnInfo sp).largestLocalAck ∧
    (c'.pnInfo sp).nextPn = (c.pnInfo sp).nextPn ∧
    (∃ k : Option Keys, (c'.pnInfo sp).localTlsSecrets = k.map (secretsOf P') ∧ (c.pnInfo sp).localTlsSecrets = k.map (secretsOf P)) ∧
    ∃ k : Option Keys, (c'.pnInfo sp).remoteTlsSecrets = k.map (secretsOf P') ∧ (c.pnInfo sp).remoteTlsSecrets = k.map (secretsOf P)

/-- What succeeds although libraries fail succeeds as without failures, ... -/
def FailStop (o' o : Out α) : Prop := ∀ x, o' = .ok x → o = .ok x
/-- ... and nothing panics that would not panic without them. -/
def NoNewPanic (o' : Out α) (o : Out β) : Prop := o'.isPanic = true → o.isPanic = true

/-- The block cipher, which masks headers, fails. -/
def BlockFails (P' P : Prims) : Prop := ∃ k s, P'.aesEcb k s = none ∧ P.aesEcb k s ≠ none

/-- C138, the part about results. -/
def C138Stops (P' P : Prims) : Prop :=
  (∀ server v d n c', Connection.new P' server v d n = .ok c' → ∃ c, Connection.new P server v d n = .ok c ∧
    ∀ bp ops, (c'.run bp ops).1 = (c.run bp ops).1 ∧ Replaced P' P (c'.run bp ops).2 (c.run bp ops).2) ∧
  ∀ (bp : Profile) (c' c : Connection), Replaced P' P c' c →
    (∀ s, FailStop (decodePackets bp c' s).1 (decodePackets bp c s).1) ∧ (∀ p : PacketInitial, FailStop (p.serialize c') (p.serialize c)) ∧
    ∀ p : PacketHandshake, FailStop (p.serialize c') (p.serialize c)
/-- C138, the part about panics. -/
def C138Calm (P' P : Prims) : Prop :=
  (∀ server v d n, NoNewPanic (Connection.new P' server v d n) (Connection.new P server v d n)) ∧
  (∀ d, NoNewPanic (Sock.newConnectionFor P' d) (Sock.newConnectionFor P d)) ∧
  ∀ (bp : Profile) (c' c : Connection), Replaced P' P c' c →
    (∀ s, NoNewPanic (decodePackets bp c' s).1 (decodePackets bp c s).1) ∧ (∀ p : PacketInitial, NoNewPanic (p.serialize c') (p.serialize c)) ∧
    ∀ p : PacketHandshake, NoNewPanic (p.serialize c') (p.serialize c)
/-- C138 for given libraries: whatever of them fails. -/
def C138For (P : Prims) : Prop := ∀ P', FailsMore P' P → C138Stops P' P ∧ C138Calm P' P
/-- C138 as a statement. -/
def C138Statement : Prop := ∀ P, PrimLaws P → C138For P
end Spec

namespace QuicSea
open Spec
variable {P' P : Prims} {bp : Profile} {B : Prop}

/-- Both parts at once, where `B` accounts for panics. -/
def LeO (B : Prop) (o' o : Out α) : Prop := FailStop o' o ∧ (o'.isPanic = true → o.isPanic = true ∨ B)
def LeR (B : Prop) (m' m : Rd α) : Prop :=
  ∀ s, (∀ x s1, m' s = (.ok x, s1) → m s = (.ok x, s1)) ∧ ((m' s).1.isPanic = true → (m s).1.isPanic = true ∨ B)

theorem LeO.refl (o : Out α) : LeO B o o := ⟨fun _ h => h, fun h => .inl h⟩
theorem LeR.refl (m : Rd α) : LeR B m m := fun _ => ⟨fun _ _ h => h, fun h => .inl h⟩
theorem LeO.bind {o' o : Out α} {f' f : α → Out β} (h : LeO B o' o) (hf : ∀ a, LeO B (f' a) (f a)) : LeO B (o' >>= f') (o >>= f) := by
  cases o' with
  | err e => exact ⟨fun _ h => (by cases h), fun h => (by cases h)⟩
  | panic w =>
    refine ⟨fun _ h => (by cases h), fun _ => ?_⟩
    rcases h.2 rfl with g | g
    · cases o with
      | panic w => exact .inl rfl
      | _ => cases g
    · exact .inr g
  | ok a => rw [h.1 a rfl]; exact hf a
theorem LeR.bind {m' m : Rd α} {f' f : α → Rd β} (h : LeR B m' m) (hf : ∀ a, LeR B (f' a) (f a)) : LeR B (m' >>= f') (m >>= f) := by
  intro s
  obtain ⟨h1, h2⟩ := h s
  rcases e : m' s with ⟨o, s1⟩
  cases o with
  | ok a => rw [Rd.bind_ok e, Rd.bind_ok (h1 a s1 e)]; exact hf a s1
  | err w =>
    have : (m' >>= f') s = (.err w, s1) := by rw [Rd.bind_apply, e]
    rw [this]
    exact ⟨fun _ _ h => (by cases h), fun h => by cases h⟩
  | panic w =>
    have : (m' >>= f') s = (.panic w, s1) := by rw [Rd.bind_apply, e]
    rw [this]
    refine ⟨fun _ _ h => (by cases h), fun _ => ?_⟩
    rw [e] at h2
    rcases h2 rfl with g | g
    · refine .inl ?_
      rw [Rd.bind_apply]
      revert g
      rcases m s with ⟨o, s2⟩
      intro g
      cases o with
      | panic w => rfl
      | _ => cases g
    · exact .inr g
theorem LeR.lift {o' o : Out α} (h : LeO B o' o) : LeR B (Rd.lift o') (Rd.lift o) := by
  intro s
  rw [Rd.lift_apply, Rd.lift_apply]
  refine ⟨fun x s1 e => ?_, h.2⟩
  cases e
  rw [h.1 x rfl]
theorem LeR.fst {m' m : Rd α} (h : LeR B m' m) (s : Stream) : LeO B (m' s).1 (m s).1 := by
  refine ⟨fun x e => ?_, (h s).2⟩
  have := (h s).1 x (m' s).2 (by rw [← e])
  rw [this]


theorem mask_le (h : FailsMore P' P) (k s : Bytes) : LeO (BlockFails P' P) (hpMaskAes128Ecb P' k s) (hpMaskAes128Ecb P k s) := by
  cases e : P'.aesEcb k s with
  | some o =>
    have : hpMaskAes128Ecb P' k s = hpMaskAes128Ecb P k s := by unfold hpMaskAes128Ecb; rw [e, h.ecb _ _ _ e]
    rw [this]
    exact .refl _
  | none =>
    have e' : hpMaskAes128Ecb P' k s = .panic "called `Result::unwrap()` on an `Err` value" := by unfold hpMaskAes128Ecb; rw [e]
    rw [e']
    refine ⟨fun _ h => (by cases h), fun _ => ?_⟩
    by_cases g : P.aesEcb k s = none
    · refine .inl ?_
      unfold hpMaskAes128Ecb
      rw [g]
      rfl
    · exact .inr ⟨k, s, e, g⟩

theorem seal_le (h : FailsMore P' P) (key iv ad p : Bytes) : LeO B (internalEncryptAes128Gcm P' key iv ad p) (internalEncryptAes128Gcm P key iv ad p) := by
  unfold internalEncryptAes128Gcm
  cases e : P'.gcmSeal key iv ad p with
  | none => exact ⟨fun _ h => (by cases h), fun h => (by cases h)⟩
  | some o => rw [h.sealing _ _ _ _ _ e]; exact .refl _
theorem open_le (h : FailsMore P' P) (key iv ad p : Bytes) : LeO B (internalDecryptAes128Gcm P' key iv ad p) (internalDecryptAes128Gcm P key iv ad p) := by
  unfold internalDecryptAes128Gcm
  split
  · exact .refl _
  · dsimp only
    cases e : P'.gcmOpen key iv ad (List.take (List.length p - 16) p) (List.drop (List.length p - AES_128_GCM_TAG_LEN) p) with
    | none => exact ⟨fun _ h => (by cases h), fun h => (by cases h)⟩
    | some o => rw [h.opening _ _ _ _ _ _ e]; exact .refl _

theorem local_le (h : FailsMore P' P) {c' c : Connection} (hc : Replaced P' P c' c) (sp : PnSpace) :
    (∀ p ad n, LeO B (c'.encryptLocalPayload sp p ad n) (c.encryptLocalPayload sp p ad n)) ∧ LeR (BlockFails P' P) (c'.getLocalHpMask sp) (c.getLocalHpMask sp) ∧
    ∀ n, c'.getLocalProtectedPayloadLen sp n = c.getLocalProtectedPayloadLen sp n := by
  obtain ⟨-, -, -, ⟨k, e1, e2⟩, -⟩ := hc.2.2.2 sp
  unfold Connection.encryptLocalPayload Connection.getLocalHpMask Connection.getLocalProtectedPayloadLen Connection.localSecrets
  rw [e1, e2]
  cases k with
  | none => exact ⟨fun _ _ _ => .refl _, .refl _, fun _ => rfl⟩
  | some k =>
    refine ⟨fun p ad n => seal_le h _ _ _ _, ?_, fun _ => rfl⟩
    exact LeR.bind (f' := fun s => Rd.lift (hpMaskAes128Ecb P' k.hp s)) (f := fun s => Rd.lift (hpMaskAes128Ecb P k.hp s)) (.refl (varBytesFromStream 16)) fun s => .lift (mask_le h _ _)
theorem remote_le (h : FailsMore P' P) {c' c : Connection} (hc : Replaced P' P c' c) (sp : PnSpace) :
    (∀ p ad n, LeO B (c'.decryptRemotePayload sp p ad n) (c.decryptRemotePayload sp p ad n)) ∧ LeR (BlockFails P' P) (c'.getRemoteHpMask sp) (c.getRemoteHpMask sp) ∧
    Connection.reconstructRemotePn bp c' sp = Connection.reconstructRemotePn bp c sp := by
  obtain ⟨a, -, -, -, ⟨k, e1, e2⟩⟩ := hc.2.2.2 sp
  refine ⟨?_, ?_, by funext l; simp only [Connection.reconstructRemotePn, a]⟩
  · unfold Connection.decryptRemotePayload Connection.remoteSecrets
    rw [e1, e2]
    cases k with
    | none => exact fun _ _ _ => .refl _
    | some k => exact fun p ad n => open_le h _ _ _ _
  · unfold Connection.getRemoteHpMask Connection.remoteSecrets
    rw [e1, e2]
    cases k with
    | none => exact .refl _
    | some k =>
      exact LeR.bind (f' := fun s => Rd.lift (hpMaskAes128Ecb P' k.hp s)) (f := fun s => Rd.lift (hpMaskAes128Ecb P k.hp s)) (.refl (varBytesFromStream 16)) fun s => .lift (mask_le h _ _)

/-! ### Reading -/

theorem tail_le (h : FailsMore P' P) {c' c : Connection} (hc : Replaced P' P c' c) (sp : PnSpace) (whole : Bool) (lenOf : Mask → Out Nat) (hdr : Mask → Out Bytes)
    (payload : Nat → Rd Bytes) (mid : Bytes) : LeR (BlockFails P' P) (tail bp c' sp whole lenOf hdr payload mid) (tail bp c sp whole lenOf hdr payload mid) := by
  obtain ⟨h1, h2, h3⟩ := remote_le (bp := bp) (B := BlockFails P' P) h hc sp
  unfold tail tailEnd
  rw [h3]
  refine .bind (.refl _) fun _ => .bind (.refl _) fun o => .bind (.lift (h2.fst o)) fun _ => .bind (.refl _) fun _ => .bind (.refl _) fun _ => .bind (.refl _) fun _ =>
    .bind (.refl _) fun _ => .bind (.refl _) fun _ => .bind (.refl _) fun _ => .bind (.lift (h1 _ _ _)) fun _ => .refl _

theorem decodeNext_le (h : FailsMore P' P) {c' c : Connection} (hc : Replaced P' P c' c) : LeR (BlockFails P' P) (decodeNextPacket bp c') (decodeNextPacket bp c) := by
  unfold decodeNextPacket
  refine .bind (.refl _) fun _ => .bind (.refl _) fun x => ?_
  cases x with
  | short x =>
    refine .bind ?_ fun _ => .refl _
    rw [oneRtt_eq, oneRtt_eq]
    exact .bind (.refl _) fun _ => .bind (.refl _) fun _ => .bind (tail_le h hc _ _ _ _ _ _) fun _ => .refl _
  | long x =>
    refine .bind (.refl _) fun t => ?_
    cases t with
    | initial =>
      refine .bind ?_ fun _ => .refl _
      rw [initial_eq, initial_eq]
      exact .bind (.refl _) fun _ => .bind (.refl _) fun _ => .bind (.refl _) fun _ => .bind (.refl _) fun _ => .bind (.refl _) fun _ => .bind (tail_le h hc _ _ _ _ _ _) fun _ => .refl _
    | handshake =>
      refine .bind ?_ fun _ => .refl _
      rw [handshake_eq, handshake_eq]
      exact .bind (.refl _) fun _ => .bind (.refl _) fun _ => .bind (.refl _) fun _ => .bind (tail_le h hc _ _ _ _ _ _) fun _ => .refl _
    | zeroRtt =>
      refine .bind ?_ fun _ => .refl _
      rw [zeroRtt_eq, zeroRtt_eq]
      exact .bind (.refl _) fun _ => .bind (.refl _) fun _ => .bind (.refl _) fun _ => .bind (tail_le h hc _ _ _ _ _ _) fun _ => .refl _
    | _ => exact .refl _

theorem decodeLoop_le (h : FailsMore P' P) {c' c : Connection} (hc : Replaced P' P c' c) (n : Nat) : LeR (BlockFails P' P) (decodePacketsLoop bp c' n) (decodePacketsLoop bp c n) := by
  induction n with
  | zero =>
    intro s
    have e : decodePacketsLoop bp c' 0 s = decodePacketsLoop bp c 0 s := by cases s <;> rfl
    rw [e]
    exact LeR.refl (decodePacketsLoop bp c 0) s
  | succ n ih =>
    intro s
    cases s with
    | nil =>
      have e : decodePacketsLoop bp c' (n + 1) [] = decodePacketsLoop bp c (n + 1) [] := rfl
      rw [e]
      exact LeR.refl (decodePacketsLoop bp c (n + 1)) []
    | cons x s =>
      have e : ∀ c, decodePacketsLoop bp c (n + 1) (x :: s) = (do let p ← decodeNextPacket bp c; let ps ← decodePacketsLoop bp c n; pure (p :: ps) : Rd (List Packet)) (x :: s) := by
        intro c
        simp only [decodePacketsLoop]
        rw [Rd.bind_apply]
        rcases decodeNextPacket bp c (x :: s) with ⟨o, s1⟩
        cases o with
        | ok p =>
          dsimp only
          rw [Rd.bind_apply]
          rcases decodePacketsLoop bp c n s1 with ⟨o, s2⟩
          cases o <;> rfl
        | _ => rfl
      rw [e, e]
      exact LeR.bind (decodeNext_le h hc) (fun p => .bind ih fun ps => .refl _) (x :: s)

/-! ### Writing -/

theorem sealTail_le (h : FailsMore P' P) {c' c : Connection} (hc : Replaced P' P c' c) (sp : PnSpace) (hd : LongPacketHeader) (mid pnb : Bytes) (pn : U64) (n : Nat) (a : Bytes) :
    LeO (BlockFails P' P) (sealTail c' sp hd mid pnb pn n a) (sealTail c sp hd mid pnb pn n a) := by
  obtain ⟨h1, h2, -⟩ := local_le (B := BlockFails P' P) h hc sp
  unfold sealTail
  exact .bind (.refl _) fun _ => .bind (h1 _ _ _) fun _ => .bind (.refl _) fun _ => .bind (h2.fst _) fun _ => .refl _

theorem initial_le (h : FailsMore P' P) {c' c : Connection} (hc : Replaced P' P c' c) (p : PacketInitial) : LeO (BlockFails P' P) (p.serialize c') (p.serialize c) := by
  rw [initial_serialize_eq, initial_serialize_eq]
  refine .bind (.refl _) fun _ => .bind (.refl _) fun _ => ?_
  rw [(local_le (B := True) h hc .initial).2.2]
  exact .bind (.refl _) fun _ => .bind (.refl _) fun _ => .bind (.refl _) fun _ => sealTail_le h hc _ _ _ _ _ _ _
theorem handshake_le (h : FailsMore P' P) {c' c : Connection} (hc : Replaced P' P c' c) (p : PacketHandshake) : LeO (BlockFails P' P) (p.serialize c') (p.serialize c) := by
  rw [handshake_serialize_eq, handshake_serialize_eq]
  refine .bind (.refl _) fun _ => .bind (.refl _) fun _ => ?_
  rw [(local_le (B := True) h hc .handshake).2.2]
  exact .bind (.refl _) fun _ => .bind (.refl _) fun _ => sealTail_le h hc _ _ _ _ _ _ _

/-! ### Creating -/

theorem new_replaced (hx : ∀ salt ikm, P'.hkdfExtract salt ikm = P.hkdfExtract salt ikm) (hk : ∀ k, P'.fromPrkOk k = true → P.fromPrkOk k = true)
    (hy : ∀ prk info n o, P'.hkdfExpand prk info n = some o → P.hkdfExpand prk info n = some o) {server : Bool} {v : Version} {d : U160} {n : Nat} {c' : Connection} (e : Connection.new P' server v d n = .ok c') :
    ∃ c, Connection.new P server v d n = .ok c ∧ Replaced P' P c' c := by
  have he : ∀ sec l n o, hkdfExpandLabelSha256 P' sec l [] n = .ok o → hkdfExpandLabelSha256 P sec l [] n = .ok o := by
    intro sec l n o e
    unfold hkdfExpandLabelSha256 at e ⊢
    split at e
    · rename_i g
      rw [if_pos (hk _ g)]
      obtain ⟨info, hi, e⟩ := Out.bind_eq_ok e
      rw [hi, Out.ok_bind]
      split at e
      · rename_i g
        cases e
        rw [hy _ _ _ _ g]
      · cases e
    · cases e
  have hs : ∀ srv cid s', Secrets.fromInitial P' srv cid v = .ok s' → ∃ k, s' = secretsOf P' k ∧ Secrets.fromInitial P srv cid v = .ok (secretsOf P k) := by
    intro srv cid s' e
    unfold Secrets.fromInitial at e ⊢
    obtain ⟨sec, hsec, e⟩ := Out.bind_eq_ok e
    have hsec' : hkdfExpandLabelSha256 P (P'.hkdfExtract (some v.getKdfInitialSalt) cid) (if srv = true then SERVER_INITIAL_SECRET_LABEL else CLIENT_INITIAL_SECRET_LABEL)
      [] 32 = .ok sec := he _ _ _ _ hsec
    rw [hx] at hsec'
    show ∃ k, s' = secretsOf P' k ∧ (hkdfExpandLabelSha256 P (P.hkdfExtract (some v.getKdfInitialSalt) cid)
      (if srv = true then SERVER_INITIAL_SECRET_LABEL else CLIENT_INITIAL_SECRET_LABEL) [] 32 >>= fun sec => Secrets.fromSecret (TLS13_AES_128_GCM_SHA256 P) sec) = _
    rw [hsec', Out.ok_bind]
    unfold Secrets.fromSecret at e ⊢
    obtain ⟨hp, hhp, e⟩ := Out.bind_eq_ok e
    obtain ⟨iv, hiv, e⟩ := Out.bind_eq_ok e
    obtain ⟨key, hkey, e⟩ := Out.bind_eq_ok e
    unfold CipherSuite.getIvSecret at hiv
    obtain ⟨rv, hrv, hiv⟩ := Out.bind_eq_ok hiv
    cases hiv
    cases e
    refine ⟨⟨hp, rv, key⟩, rfl, ?_⟩
    have g1 : (TLS13_AES_128_GCM_SHA256 P).getHpSecret sec HEADER_PROTECTION_LABEL = .ok hp := he _ _ _ _ hhp
    have g2 : (TLS13_AES_128_GCM_SHA256 P).hkdfExpandLabel sec INITIAL_VECTOR_LABEL [] 12 = .ok rv := he _ _ _ _ hrv
    have g3 : (TLS13_AES_128_GCM_SHA256 P).getKey sec KEY_LABEL = .ok key := he _ _ _ _ hkey
    rw [g1, Out.ok_bind]
    unfold CipherSuite.getIvSecret
    show ((do let rv ← (TLS13_AES_128_GCM_SHA256 P).hkdfExpandLabel sec INITIAL_VECTOR_LABEL [] 12; pure (some rv)) >>= _) = _
    rw [g2]
    show ((TLS13_AES_128_GCM_SHA256 P).getKey sec KEY_LABEL >>= _) = _
    rw [g3]
    rfl
  obtain ⟨b, ss, cs, e1, e2, e3, rfl⟩ := new_ok e
  obtain ⟨ks, rfl, g2⟩ := hs _ _ _ e2
  obtain ⟨kc, rfl, g3⟩ := hs _ _ _ e3
  refine ⟨{ version := v
            initialPnInfo := { PnInfo.new with localTlsSecrets := some (if server then secretsOf P ks else secretsOf P kc),
                                               remoteTlsSecrets := some (if server then secretsOf P kc else secretsOf P ks) }
            handshakePnInfo := PnInfo.new, applicationPnInfo := PnInfo.new, dcid := (d, n), scid := none }, ?_, rfl, rfl, rfl, fun sp => ?_⟩
  · unfold Connection.new
    simp only [e1, g2, g3, Out.ok_bind]
    cases server <;> rfl
  cases sp with
  | initial =>
    refine ⟨rfl, rfl, rfl, ⟨some (if server then ks else kc), ?_⟩, ⟨some (if server then kc else ks), ?_⟩⟩ <;> cases server <;> exact ⟨rfl, rfl⟩
  | handshake => exact ⟨rfl, rfl, rfl, ⟨none, rfl, rfl⟩, ⟨none, rfl, rfl⟩⟩
  | application => exact ⟨rfl, rfl, rfl, ⟨none, rfl, rfl⟩, ⟨none, rfl, rfl⟩⟩

theorem new_le (h : FailsMore P' P) {server : Bool} {v : Version} {d : U160} {n : Nat} {c' : Connection} (e : Connection.new P' server v d n = .ok c') :
    ∃ c, Connection.new P server v d n = .ok c ∧ Replaced P' P c' c := new_replaced h.extract h.prk h.expand e

theorem set_le (sp : PnSpace) (x : U64) {c' c : Connection} (hc : Replaced P' P c' c) :
    Replaced P' P (c'.setPnInfo sp { c'.pnInfo sp with nextPn := x }) (c.setPnInfo sp { c.pnInfo sp with nextPn := x }) := by
  obtain ⟨a1, a2, a3⟩ := setPnInfo_other c sp { c.pnInfo sp with nextPn := x }
  obtain ⟨b1, b2, b3⟩ := setPnInfo_other c' sp { c'.pnInfo sp with nextPn := x }
  refine ⟨b3.trans (hc.1.trans a3.symm), b1.trans (hc.2.1.trans a1.symm), b2.trans (hc.2.2.1.trans a2.symm), fun sp' => ?_⟩
  rw [pnInfo_set, pnInfo_set]
  split
  · obtain ⟨g1, g2, -, g4, g5⟩ := hc.2.2.2 sp
    exact ⟨g1, g2, rfl, g4, g5⟩
  · exact hc.2.2.2 sp'
theorem nextPn_le (sp : PnSpace) {c' c : Connection} (hc : Replaced P' P c' c) :
    (c'.getNextPn bp sp).1 = (c.getNextPn bp sp).1 ∧ Replaced P' P (c'.getNextPn bp sp).2 (c.getNextPn bp sp).2 := by
  unfold Connection.getNextPn
  obtain ⟨h1, h2, h3, -, -⟩ := hc.2.2.2 sp
  dsimp only
  rw [h3]
  split
  · exact ⟨by rw [h2], set_le sp _ hc⟩
  · exact ⟨rfl, hc⟩
  · exact ⟨rfl, hc⟩
theorem fromConnection_le {c' c : Connection} (hc : Replaced P' P c' c) (b : U8) : LongPacketHeader.fromConnection c' b = LongPacketHeader.fromConnection c b := by
  unfold LongPacketHeader.fromConnection Connection.getDcid Connection.getScid Connection.getVersionField
  rw [hc.1, hc.2.1, hc.2.2.1]
theorem step_le (op : ConnOp) {c' c : Connection} (hc : Replaced P' P c' c) : (c'.step bp op).1 = (c.step bp op).1 ∧ Replaced P' P (c'.step bp op).2 (c.step bp op).2 := by
  cases op with
  | setScid cid len => exact ⟨rfl, hc.1, hc.2.1, rfl, fun sp => by have := hc.2.2.2 sp; cases sp <;> exact this⟩
  | nextPn sp =>
    obtain ⟨h1, h2⟩ := nextPn_le (bp := bp) sp hc
    exact ⟨by unfold Connection.step; simp only [h1], h2⟩
  | buildInitial fs t =>
    obtain ⟨h1, h2⟩ := nextPn_le (bp := bp) .initial hc
    unfold Connection.step PacketInitial.new
    generalize c'.getNextPn bp .initial = r' at *
    generalize c.getNextPn bp .initial = r at *
    obtain ⟨o', d'⟩ := r'
    obtain ⟨o, d⟩ := r
    simp only at h1 h2
    subst h1
    cases o' with
    | err => exact ⟨rfl, h2⟩
    | panic => exact ⟨rfl, h2⟩
    | ok x => dsimp only; rw [fromConnection_le h2]; exact ⟨rfl, h2⟩
  | buildHandshake fs =>
    obtain ⟨h1, h2⟩ := nextPn_le (bp := bp) .handshake hc
    unfold Connection.step PacketHandshake.new
    generalize c'.getNextPn bp .handshake = r' at *
    generalize c.getNextPn bp .handshake = r at *
    obtain ⟨o', d'⟩ := r'
    obtain ⟨o, d⟩ := r
    simp only at h1 h2
    subst h1
    cases o' with
    | err => exact ⟨rfl, h2⟩
    | panic => exact ⟨rfl, h2⟩
    | ok x => dsimp only; rw [fromConnection_le h2]; exact ⟨rfl, h2⟩
theorem run_le (ops : List ConnOp) {c' c : Connection} (hc : Replaced P' P c' c) : (c'.run bp ops).1 = (c.run bp ops).1 ∧ Replaced P' P (c'.run bp ops).2 (c.run bp ops).2 := by
  induction ops generalizing c' c with
  | nil => exact ⟨rfl, hc⟩
  | cons op ops ih =>
    obtain ⟨h1, h2⟩ := step_le (bp := bp) op hc
    obtain ⟨h3, h4⟩ := ih h2
    exact ⟨by unfold Connection.run; simp only [h1, h3], h4⟩

theorem fromInitial_calm (P : Prims) (srv : Bool) (cid : Bytes) (v : Version) : (Secrets.fromInitial P srv cid v).isPanic = false := by
  have hb : ∀ {α β : Type} {o : Out α} {f : α → Out β}, o.isPanic = false → (∀ a, (f a).isPanic = false) → (o >>= f).isPanic = false := by
    intro α β o f h g
    cases o with
    | ok a => exact g a
    | err e => rfl
    | panic w => cases h
  have he : ∀ sec l n, (hkdfExpandLabelSha256 P sec l [] n).isPanic = false := by
    intro sec l n
    unfold hkdfExpandLabelSha256
    split
    · refine hb ?_ fun info => ?_
      · unfold getHkdfLabelInfo
        split
        · rfl
        · split
          · rfl
          · dsimp only
            split <;> rfl
      · split <;> rfl
    · rfl
  unfold Secrets.fromInitial
  refine hb (he _ _ _) fun sec => ?_
  unfold Secrets.fromSecret
  exact hb (he _ _ _) fun hp => hb (hb (he _ _ _) fun _ => rfl) fun iv => hb (he _ _ _) fun key => rfl

/-! ### When nothing can be masked -/

/-- What succeeds, with a result as `Q` says, panics. -/
def DeadO (m' m : Out α) : Prop := ∀ x, m = .ok x → m'.isPanic = true
def DeadR (Q : α → Prop) (m' m : Rd α) : Prop := ∀ s x s1, m s = (.ok x, s1) → Q x → (m' s).1.isPanic = true

theorem DeadO.left {o' o : Out α} {f' f : α → Out β} (h : DeadO o' o) : DeadO (o' >>= f') (o >>= f) := by
  intro x e
  obtain ⟨a, ha, -⟩ := Out.bind_eq_ok e
  have := h a ha
  cases o' with
  | panic w => rfl
  | _ => cases this
theorem DeadO.right {o : Out α} {f' f : α → Out β} (h : ∀ a, DeadO (f' a) (f a)) : DeadO (o >>= f') (o >>= f) := by
  intro x e
  obtain ⟨a, ha, e⟩ := Out.bind_eq_ok e
  subst ha
  exact h a x e
theorem DeadR.left {m' m : Rd α} {f' f : α → Rd β} {Q : β → Prop} (h : DeadR (fun _ => True) m' m) : DeadR Q (m' >>= f') (m >>= f) := by
  intro s x s1 e _
  obtain ⟨a, s2, ha, -⟩ := Rd.bind_eq_ok e
  have := h s a s2 ha trivial
  rw [Rd.bind_apply]
  revert this
  rcases m' s with ⟨o, s3⟩
  intro this
  cases o with
  | panic w => rfl
  | _ => cases this
theorem DeadR.right {m : Rd α} {f' f : α → Rd β} {Q : β → Prop} (h : ∀ a, DeadR Q (f' a) (f a)) : DeadR Q (m >>= f') (m >>= f) := by
  intro s x s1 e q
  obtain ⟨a, s2, ha, e⟩ := Rd.bind_eq_ok e
  rw [Rd.bind_ok ha]
  exact h a s2 x s1 e q
theorem DeadR.lift {o' o : Out α} {Q : α → Prop} (h : DeadO o' o) : DeadR Q (Rd.lift o') (Rd.lift o) := by
  intro s x s1 e _
  rw [Rd.lift_apply] at e ⊢
  cases e
  exact h x rfl
theorem DeadR.fst {m' m : Rd α} (h : DeadR (fun _ => True) m' m) (s : Stream) : DeadO (m' s).1 (m s).1 := fun x e => h s x (m s).2 (by rw [← e]) trivial

theorem mask_dead (h : ∀ k s, P'.aesEcb k s = none) (k s : Bytes) : DeadO (hpMaskAes128Ecb P' k s) (hpMaskAes128Ecb P k s) := by
  intro x _
  unfold hpMaskAes128Ecb
  rw [h]
  rfl
theorem local_dead (h : ∀ k s, P'.aesEcb k s = none) {c' c : Connection} (hc : Replaced P' P c' c) (sp : PnSpace) :
    DeadR (fun _ => True) (c'.getLocalHpMask sp) (c.getLocalHpMask sp) := by
  obtain ⟨-, -, -, ⟨k, e1, e2⟩, -⟩ := hc.2.2.2 sp
  unfold Connection.getLocalHpMask Connection.localSecrets
  rw [e1, e2]
  cases k with
  | none => intro s x s1 e; cases e
  | some k =>
    exact DeadR.right (m := varBytesFromStream 16) (f' := fun s => Rd.lift (hpMaskAes128Ecb P' k.hp s)) (f := fun s => Rd.lift (hpMaskAes128Ecb P k.hp s)) fun s =>
      .lift (mask_dead h _ _)
theorem remote_dead (h : ∀ k s, P'.aesEcb k s = none) {c' c : Connection} (hc : Replaced P' P c' c) (sp : PnSpace) :
    DeadR (fun _ => True) (c'.getRemoteHpMask sp) (c.getRemoteHpMask sp) := by
  obtain ⟨-, -, -, -, ⟨k, e1, e2⟩⟩ := hc.2.2.2 sp
  unfold Connection.getRemoteHpMask Connection.remoteSecrets
  rw [e1, e2]
  cases k with
  | none => intro s x s1 e; cases e
  | some k =>
    exact DeadR.right (m := varBytesFromStream 16) (f' := fun s => Rd.lift (hpMaskAes128Ecb P' k.hp s)) (f := fun s => Rd.lift (hpMaskAes128Ecb P k.hp s)) fun s =>
      .lift (mask_dead h _ _)
theorem tail_dead (h : ∀ k s, P'.aesEcb k s = none) {c' c : Connection} (hc : Replaced P' P c' c) (sp : PnSpace) (whole : Bool) (lenOf : Mask → Out Nat)
    (hdr : Mask → Out Bytes) (payload : Nat → Rd Bytes) (mid : Bytes) : DeadR (fun _ => True) (tail bp c' sp whole lenOf hdr payload mid) (tail bp c sp whole lenOf hdr payload mid) := by
  unfold tail
  exact .right fun _ => .right fun o => .left (.lift ((remote_dead h hc sp).fst o))
theorem sealTail_dead (h0 : ∀ k s, P'.aesEcb k s = none) (hs : P'.gcmSeal = P.gcmSeal) {c' c : Connection} (hc : Replaced P' P c' c) (sp : PnSpace)
    (hd : LongPacketHeader) (mid pnb : Bytes) (pn : U64) (n : Nat) (a : Bytes) : DeadO (sealTail c' sp hd mid pnb pn n a) (sealTail c sp hd mid pnb pn n a) := by
  have e : ∀ p ad n, c'.encryptLocalPayload sp p ad n = c.encryptLocalPayload sp p ad n := by
    obtain ⟨-, -, -, ⟨k, e1, e2⟩, -⟩ := hc.2.2.2 sp
    unfold Connection.encryptLocalPayload Connection.localSecrets
    rw [e1, e2]
    cases k with
    | none => exact fun _ _ _ => rfl
    | some k =>
      intro p ad n
      show internalEncryptAes128Gcm P' _ _ _ _ = internalEncryptAes128Gcm P _ _ _ _
      unfold internalEncryptAes128Gcm
      rw [hs]
      rfl
  unfold sealTail
  simp only [e]
  exact .right fun _ => .right fun _ => .right fun _ => .left ((local_dead h0 hc sp).fst _)

/-! ### The theorems -/

/-- What succeeds although libraries fail succeeds with the same result without failures: no failure is taken for an answer.
Missing for the full statement: the panics of the block cipher (`C138_false`). -/
theorem C138_stops_partial (h : FailsMore P' P) : C138Stops P' P := by
  refine ⟨fun server v d n c' e => ?_, fun bp c' c hc => ⟨fun s => ?_, fun p => (initial_le h hc p).1, fun p => (handshake_le h hc p).1⟩⟩
  · obtain ⟨c, hn, hc⟩ := new_le h e
    exact ⟨c, hn, fun bp ops => run_le ops hc⟩
  · exact ((decodeLoop_le h hc (s.length + 1)).fst s).1
/-- Failures other than those of the block cipher do not make reading or writing packets panic, ...
Missing for the full statement: the panics of the block cipher (`C138_false`). -/
theorem C138_calm_partial (h : FailsMore P' P) (hb : ¬ BlockFails P' P) (c' c : Connection) (hc : Replaced P' P c' c) :
    (∀ s, NoNewPanic (decodePackets bp c' s).1 (decodePackets bp c s).1) ∧ (∀ p : PacketInitial, NoNewPanic (p.serialize c') (p.serialize c)) ∧
    ∀ p : PacketHandshake, NoNewPanic (p.serialize c') (p.serialize c) := by
  refine ⟨fun s e => ?_, fun p e => ?_, fun p e => ?_⟩
  · rcases ((decodeLoop_le h hc (s.length + 1)).fst s).2 e with g | g
    · exact g
    · exact absurd g hb
  · rcases (initial_le h hc p).2 e with g | g
    · exact g
    · exact absurd g hb
  · rcases (handshake_le h hc p).2 e with g | g
    · exact g
    · exact absurd g hb
/-- ... and none of any kind makes `Connection::new` panic, which it does for ids of more than 20 bytes only.
Missing for the full statement: the panics of the block cipher (`C138_false`). -/
theorem C138_new_partial (P : Prims) (server : Bool) (v : Version) (d : U160) (n : Nat) : (Connection.new P server v d n).isPanic = true ↔ 20 < n := by
  unfold Connection.new
  by_cases hn : n ≤ 20
  · rw [toVarBytes_eq d n hn, Out.ok_bind]
    refine ⟨fun e => ?_, fun g => by omega⟩
    exfalso
    have h1 := fromInitial_calm P true (d.toBytes.drop (20 - n)) v
    have h2 := fromInitial_calm P false (d.toBytes.drop (20 - n)) v
    simp only [Out.ok_bind] at e
    revert e h1 h2
    generalize Secrets.fromInitial P true (d.toBytes.drop (20 - n)) v = o1
    generalize Secrets.fromInitial P false (d.toBytes.drop (20 - n)) v = o2
    intro e h1 h2
    cases o1 with
    | ok a =>
      cases o2 with
      | ok b => cases e
      | err w => cases e
      | panic w => cases h2
    | err w => cases e
    | panic w => cases h1
  · refine ⟨fun _ => by omega, fun g => ?_⟩
    have := toVarBytes_panic d n g
    revert this
    generalize d.toVarBytes n = o
    intro this
    cases o with
    | panic w => rfl
    | _ => cases this

/-- Protected packets: all but those of version negotiation and Retry packets. -/
def Masked : Packet → Prop
  | .versionNegotiation _ | .retry _ => False
  | _ => True

/-- Where the block cipher fails every protected packet that would be read makes reading panic, and every packet that would be written makes writing panic. -/
theorem C138_block (h0 : ∀ k s, P'.aesEcb k s = none) (hs : P'.gcmSeal = P.gcmSeal) (h : FailsMore P' P) (c' c : Connection) (hc : Replaced P' P c' c) :
    (∀ s p s1, decodeNextPacket bp c s = (.ok p, s1) → Masked p → (decodeNextPacket bp c' s).1.isPanic = true ∧ (decodePackets bp c' s).1.isPanic = true) ∧
    (∀ (p : PacketInitial) out, p.serialize c = .ok out → (p.serialize c').isPanic = true) ∧
    ∀ (p : PacketHandshake) out, p.serialize c = .ok out → (p.serialize c').isPanic = true := by
  refine ⟨fun s p s1 e hp => ?_, fun p out => ?_, fun p out => ?_⟩
  · have key : DeadR Masked (decodeNextPacket bp c') (decodeNextPacket bp c) := by
      unfold decodeNextPacket
      refine .right fun _ => .right fun x => ?_
      cases x with
      | short x =>
        refine .left ?_
        rw [oneRtt_eq, oneRtt_eq]
        exact .right fun _ => .right fun _ => .left (tail_dead h0 hc _ _ _ _ _ _)
      | long x =>
        refine .right fun t => ?_
        cases t with
        | initial =>
          refine .left ?_
          rw [initial_eq, initial_eq]
          exact .right fun _ => .right fun _ => .right fun _ => .right fun _ => .right fun _ => .left (tail_dead h0 hc _ _ _ _ _ _)
        | handshake =>
          refine .left ?_
          rw [handshake_eq, handshake_eq]
          exact .right fun _ => .right fun _ => .right fun _ => .left (tail_dead h0 hc _ _ _ _ _ _)
        | zeroRtt =>
          refine .left ?_
          rw [zeroRtt_eq, zeroRtt_eq]
          exact .right fun _ => .right fun _ => .right fun _ => .left (tail_dead h0 hc _ _ _ _ _ _)
        | retry => exact .right fun r => fun s x s1 e q => by cases e; exact q.elim
        | versionNegotiation => exact .right fun r => fun s x s1 e q => by cases e; exact q.elim
        | _ => intro s x s1 e; cases e
    have hd := key s p s1 e hp
    refine ⟨hd, ?_⟩
    cases s with
    | nil =>
      have := decodeNext_nil bp c
      rw [e] at this
      cases this
    | cons x s =>
      unfold decodePackets
      simp only [List.length_cons, decodePacketsLoop]
      revert hd
      rcases decodeNextPacket bp c' (x :: s) with ⟨o, s2⟩
      intro hd
      cases o with
      | panic w => rfl
      | _ => cases hd
  · revert out
    show DeadO _ _
    rw [initial_serialize_eq, initial_serialize_eq]
    refine .right fun _ => .right fun _ => ?_
    rw [(local_le (B := True) h hc .initial).2.2]
    exact .right fun _ => .right fun _ => .right fun _ => sealTail_dead h0 hs hc _ _ _ _ _ _ _
  · revert out
    show DeadO _ _
    rw [handshake_serialize_eq, handshake_serialize_eq]
    refine .right fun _ => .right fun _ => ?_
    rw [(local_le (B := True) h hc .handshake).2.2]
    exact .right fun _ => .right fun _ => sealTail_dead h0 hs hc _ _ _ _ _ _ _

/-- Where keys cannot be derived, `Connection::new` says so, but every datagram makes `accept` panic. -/
theorem C138_accept (h0 : ∀ prk info n, P.hkdfExpand prk info n = none) :
    (∀ server v d n, n ≤ 20 → ∃ e, Connection.new P server v d n = .err e) ∧ ∀ d, (Sock.newConnectionFor P d).isPanic = true := by
  have hs : ∀ server v d n c, Connection.new P server v d n ≠ .ok c := by
    intro server v d n c e
    obtain ⟨b, ss, cs, -, e2, -, -⟩ := new_ok e
    obtain ⟨k, -, sec, ⟨info, -, hx⟩, -⟩ := fromInitial_ok e2
    rw [h0] at hx
    cases hx
  refine ⟨fun server v d n hn => ?_, fun d => ?_⟩
  · have h1 := hs server v d n
    have h2 := C138_new_partial P server v d n
    revert h1 h2
    generalize Connection.new P server v d n = o
    intro h1 h2
    cases o with
    | ok c => exact absurd rfl (h1 c)
    | err e => exact ⟨e, rfl⟩
    | panic w => have := h2.mp rfl; omega
  · unfold Sock.newConnectionFor
    generalize (nextHeaderFromStream (makeResultStream d.data)).1 = o
    cases o with
    | err e => rfl
    | panic w => rfl
    | ok x =>
      show ((Connection.new P true .v1 x.getDestinationId x.getDestinationIdLength.toNat).unwrap).isPanic = true
      have h1 := hs true .v1 x.getDestinationId x.getDestinationIdLength.toNat
      revert h1
      generalize Connection.new P true .v1 x.getDestinationId x.getDestinationIdLength.toNat = o
      intro h1
      cases o with
      | ok c => exact absurd rfl (h1 c)
      | err e => rfl
      | panic w => rfl

/-- Libraries whose block cipher always fails, and ... -/
def noBlock (P : Prims) : Prims := { P with aesEcb := fun _ _ => none }
/-- ... whose key derivation does. -/
def noExpand (P : Prims) : Prims := { P with hkdfExpand := fun _ _ _ => none }
theorem noBlock_fails (P : Prims) : FailsMore (noBlock P) P :=
  ⟨fun _ _ => rfl, fun _ h => h, fun _ _ _ _ h => h, fun _ _ _ h => (by cases h), fun _ _ _ _ _ h => h, fun _ _ _ _ _ _ h => h⟩
theorem noExpand_fails (P : Prims) : FailsMore (noExpand P) P :=
  ⟨fun _ _ => rfl, fun _ h => h, fun _ _ _ _ h => (by cases h), fun _ _ _ h => h, fun _ _ _ _ _ h => h, fun _ _ _ _ _ _ h => h⟩

/-- Libraries that cannot seal long payloads: without failures of the block cipher, and connections are created as before. -/
def noLong (P : Prims) : Prims := { P with gcmSeal := fun k iv ad p => if p.length > 100 then none else P.gcmSeal k iv ad p }
theorem noLong_fails (P : Prims) : FailsMore (noLong P) P ∧ ¬ BlockFails (noLong P) P := by
  refine ⟨⟨fun _ _ => rfl, fun _ h => h, fun _ _ _ _ h => h, fun _ _ _ h => h, fun k iv ad p o h => ?_, fun _ _ _ _ _ _ h => h⟩, fun ⟨k, s, h1, h2⟩ => h2 h1⟩
  have h' : (if p.length > 100 then none else P.gcmSeal k iv ad p) = some o := h
  split at h'
  · cases h'
  · exact h'
example : ∃ c' c, Connection.new (noLong real) false .v1 anyId 8 = .ok c' ∧ Connection.new real false .v1 anyId 8 = .ok c ∧ Replaced (noLong real) real c' c := by
  obtain ⟨c, hc⟩ := any_conn real_laws false
  obtain ⟨c', hn', -⟩ := new_replaced (P' := real) (P := noLong real) (fun _ _ => rfl) (fun _ h => h) (fun _ _ _ _ h => h) hc
  obtain ⟨c1, hn1, h⟩ := new_le (noLong_fails real).1 hn'
  cases hc.symm.trans hn1
  exact ⟨c', c, hn', hc, h⟩

/-- A PING frame from a peer, and a server whose block cipher fails. -/
theorem C138_false_any (P : Prims) (hP : PrimLaws P) : ¬ C138For P := by
  intro h
  obtain ⟨c, out, hn, hr, hd⟩ := any_payload hP [1] [.ping] (by decide) (by decide +kernel)
  have hf := noBlock_fails P
  obtain ⟨c', hn', -⟩ := new_replaced (P' := P) (P := noBlock P) (fun _ _ => rfl) (fun _ h => h) (fun _ _ _ _ h => h) hn
  obtain ⟨c1, hn1, hc⟩ := new_le hf hn'
  cases hn.symm.trans hn1
  have e := (C138_block (P' := noBlock P) (P := P) (bp := .debug) (fun _ _ => rfl) rfl hf c' c hc).1 _ _ _ (hd []) trivial
  have g := ((h _ hf).2.2.2 .debug c' c hc).1 _ e.2
  rw [List.append_nil, decoded_alone hd] at g
  cases g
theorem C138_false : ¬ C138Statement := fun h => C138_false_any toy toy_laws (h toy toy_laws)
theorem C138_false_real : ¬ C138For real := C138_false_any real real_laws
/-- The same for `accept`, on the first bytes of an Initial packet. -/
theorem C138_false_accept (P : Prims) (hP : PrimLaws P) : ¬ C138For P := by
  intro h
  have g := (h _ (noExpand_fails P)).2.2.1 ⟨[0xc3, 0, 0, 0, 1, 8, 1, 2, 3, 4, 5, 6, 7, 8, 2, 0x11, 0x22], 0⟩ ((C138_accept fun _ _ _ => rfl).2 _)
  obtain ⟨c, hc⟩ := any_conn hP true
  have e : Sock.newConnectionFor P ⟨[0xc3, 0, 0, 0, 1, 8, 1, 2, 3, 4, 5, 6, 7, 8, 2, 0x11, 0x22], 0⟩ = (Connection.new P true .v1 anyId 8).unwrap := by
    unfold Sock.newConnectionFor
    rw [show (nextHeaderFromStream (makeResultStream [0xc3, 0, 0, 0, 1, 8, 1, 2, 3, 4, 5, 6, 7, 8, 2, 0x11, 0x22])).1 =
      .ok (.long { anyHeader 0xc3 1 with isProtected := true }) by decide +kernel]
    rfl
  rw [e, hc] at g
  cases g

end QuicSea
