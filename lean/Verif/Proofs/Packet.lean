import Verif.Proofs.Crypto
import Verif.Proofs.Header
import Verif.Proofs.FrameWrite
/-
Protected packets: the part common to `from_stream` of the four protected packet types.
-/
namespace QuicSea
open Spec

namespace Rd
theorem bind_assoc (m : Rd α) (f : α → Rd β) (g : β → Rd γ) : (m >>= f) >>= g = m >>= fun a => f a >>= g := by
  funext s
  simp only [bind_apply]
  rcases m s with ⟨o, s'⟩
  cases o <;> rfl
theorem pure_bind (a : α) (f : α → Rd β) : (Pure.pure a : Rd α) >>= f = f a := rfl
theorem bind_congr {m : Rd α} {f g : α → Rd β} {s : Stream} (h : ∀ a s', m s = (.ok a, s') → f a s' = g a s') : (m >>= f) s = (m >>= g) s := by
  simp only [bind_apply]
  rcases hm : m s with ⟨o, s'⟩
  cases o with
  | ok a => exact h a s' hm
  | err e => rfl
  | panic w => rfl
end Rd

/-- What follows the ciphertext being read. -/
def tailEnd (c : Connection) (sp : PnSpace) (hdr : Mask → Out Bytes) (mid : Bytes) (mask : Mask) (pnB : Bytes) (pn : U64) (data : Bytes) :
    Rd (Mask × Bytes × U64 × List Frame) := do
  let hb ← Rd.lift (hdr mask)
  let frameData ← Rd.lift (c.decryptRemotePayload sp data (hb ++ mid ++ pnB) pn)
  let fs ← Rd.lift (deserializeFrames (makeResultStream frameData)).1
  pure (mask, pnB, pn, fs)

/-- From the packet number on. -/
def tail (bp : Profile) (c : Connection) (sp : PnSpace) (whole : Bool) (lenOf : Mask → Out Nat) (hdr : Mask → Out Bytes)
    (payload : Nat → Rd Bytes) (mid : Bytes) : Rd (Mask × Bytes × U64 × List Frame) := do
  let pnP ← varBytesFromStream 4
  let offsetStream ← Rd.cloned
  let mask ← Rd.lift (c.getRemoteHpMask sp offsetStream).1
  let pnLength ← Rd.lift (lenOf mask)
  let pnU ← Rd.lift (xorPnProtection pnP mask)
  let pnB ← Rd.lift (sliceTo pnU pnLength)
  let pn ← Rd.lift (c.reconstructRemotePn bp sp (if whole then pnU else pnB))
  let data ← payload pnLength
  tailEnd c sp hdr mid mask pnB pn data

def lenBytes (bp : Profile) (length : U64) (n : Nat) : Rd Bytes := do
  let k ← Rd.lift (subUsize bp length.toNat n)
  varBytesFromStream k

theorem initial_eq (bp : Profile) (c : Connection) : PacketInitial.fromStream bp c = (do
    let headerByte ← u8FromDatagram
    let header ← LongPacketHeader.fromStream headerByte
    let t ← varIntWithBytesFromStream
    let token ← varBytesFromStream t.1.toNat
    let l ← varIntWithBytesFromStream
    let r ← tail bp c .initial false (fun m => (header.removeProtection m).packetNumberLength)
      (fun m => (header.removeProtection m).toBytes) (lenBytes bp l.1) (t.2 ++ token ++ l.2)
    pure { header := header.removeProtection r.1, token, packetNumber := r.2.2.1, packetNumberBytes := r.2.1, packetPayload := r.2.2.2 }) := by
  simp only [PacketInitial.fromStream, tail, tailEnd, lenBytes, Rd.bind_assoc, Rd.pure_bind, List.append_assoc, Bool.false_eq_true, if_false]
theorem handshake_eq (bp : Profile) (c : Connection) : PacketHandshake.fromStream bp c = (do
    let headerByte ← u8FromDatagram
    let header ← LongPacketHeader.fromStream headerByte
    let l ← varIntWithBytesFromStream
    let r ← tail bp c .handshake true (fun m => (header.removeProtection m).packetNumberLength)
      (fun m => (header.removeProtection m).toBytes) (lenBytes bp l.1) l.2
    pure { header := header.removeProtection r.1, packetNumber := r.2.2.1, packetNumberBytes := r.2.1, packetPayload := r.2.2.2 }) := by
  simp only [PacketHandshake.fromStream, tail, tailEnd, lenBytes, Rd.bind_assoc, Rd.pure_bind, List.append_assoc, if_true]
theorem oneRtt_eq (bp : Profile) (c : Connection) : PacketOneRtt.fromStream bp c = (do
    let headerByte ← u8FromDatagram
    let header ← ShortPacketHeader.fromStream headerByte
    let r ← tail bp c .application false (fun m => (header.removeProtection m).packetNumberLength)
      (fun m => (header.removeProtection m).toBytes) (fun _ => allBytesFromStream) []
    pure { header := header.removeProtection r.1, packetNumber := r.2.2.1, packetNumberBytes := r.2.1, packetPayload := r.2.2.2 }) := by
  simp only [PacketOneRtt.fromStream, tail, tailEnd, Rd.bind_assoc, Rd.pure_bind, List.append_nil, Bool.false_eq_true, if_false]
theorem sliceTo_ok {b : Bytes} {n : Nat} {x : Bytes} : sliceTo b n = .ok x ↔ n ≤ b.length ∧ x = b.take n := by
  unfold sliceTo
  split
  · constructor
    · intro h; cases h; exact ⟨by assumption, rfl⟩
    · intro h; rw [h.2]
  · constructor
    · intro h; cases h
    · intro h; omega
theorem zeroRtt_eq (bp : Profile) (c : Connection) : PacketZeroRtt.fromStream bp c = (do
    let headerByte ← u8FromDatagram
    let header ← LongPacketHeader.fromStream headerByte
    let l ← varIntWithBytesFromStream
    let r ← tail bp c .application false (fun m => (header.removeProtection m).packetNumberLength)
      (fun m => (header.removeProtection m).toBytes) (lenBytes bp l.1) l.2
    pure { header := header.removeProtection r.1, length := l.1, packetNumber := r.2.2.1, packetNumberBytes := r.2.1, packetPayload := r.2.2.2 }) := by
  funext s
  simp only [PacketZeroRtt.fromStream, tail, tailEnd, lenBytes, Rd.bind_assoc, Rd.pure_bind, List.append_assoc, Bool.false_eq_true, if_false]
  refine Rd.bind_congr fun _ _ _ => Rd.bind_congr fun _ _ _ => Rd.bind_congr fun l _ _ => ?_
  refine Rd.bind_congr fun _ _ _ => Rd.bind_congr fun _ _ _ => Rd.bind_congr fun _ _ _ => Rd.bind_congr fun n _ _ => ?_
  refine Rd.bind_congr fun _ _ _ => Rd.bind_congr fun b _ hb => Rd.bind_congr fun _ _ _ => Rd.bind_congr fun _ _ _ => ?_
  refine Rd.bind_congr fun _ _ _ => Rd.bind_congr fun _ _ _ => ?_
  obtain ⟨h1, h2⟩ := sliceTo_ok.mp (congrArg Prod.fst hb)
  have : sliceTo b n = .ok b := sliceTo_ok.mpr ⟨by rw [h2, List.length_take]; omega, by rw [h2, List.take_take, Nat.min_self]⟩
  rw [this]
  rfl

/-! ### Evaluation -/

def maskList (m : Mask) : Bytes := [m.m1, m.m2, m.m3, m.m4]

theorem hpMask_ok {P : Prims} {k s : Bytes} {m : Mask} : hpMaskAes128Ecb P k s = .ok m ↔
    ∃ r, P.aesEcb k s = some (m.m0 :: m.m1 :: m.m2 :: m.m3 :: m.m4 :: r) := by
  unfold hpMaskAes128Ecb
  constructor
  · intro h
    split at h
    · cases h
    · cases h; exact ⟨_, by assumption⟩
    · cases h
  · rintro ⟨r, h⟩
    rw [h]
theorem hpMask_noPanic {P : Prims} (hP : PrimLaws P) {k s : Bytes} (hk : k.length = 16) (hs : s.length = 16) :
    ∃ m, hpMaskAes128Ecb P k s = .ok m := by
  obtain ⟨o, ho, hl⟩ := hP.ecb k s hk hs
  match o, hl with
  | a :: b :: c :: d :: e :: r, _ => exact ⟨⟨a, b, c, d, e⟩, hpMask_ok.mpr ⟨r, ho⟩⟩

theorem hpm_run {P : Prims} {k : Keys} {smp : Bytes} (hl : smp.length = 16) (s : Stream) :
    ((secretsOf P k).getHeaderProtectionMask (makeResultStream smp ++ s)).1 = hpMaskAes128Ecb P k.hp smp := by
  unfold Secrets.getHeaderProtectionMask
  rw [Rd.bind_ok (varBytes_reads' (n := (secretsOf P k).cipherSuite.sampleLen) hl s)]
  rfl
theorem hpm_inv {P : Prims} {k : Keys} {s : Stream} {m : Mask} (h : ((secretsOf P k).getHeaderProtectionMask s).1 = .ok m) :
    ∃ smp s', s = makeResultStream smp ++ s' ∧ smp.length = 16 ∧ hpMaskAes128Ecb P k.hp smp = .ok m := by
  unfold Secrets.getHeaderProtectionMask at h
  rcases e : (varBytesFromStream (secretsOf P k).cipherSuite.sampleLen) s with ⟨o, s'⟩
  cases o with
  | ok b =>
    obtain ⟨bs, e1, rfl, l⟩ := varBytes_sound _ _ _ _ e
    rw [Rd.bind_ok e] at h
    exact ⟨bs, s', e1, l, h⟩
  | err w => rw [Rd.bind_err e] at h; cases h
  | panic w => rw [Rd.bind_panic e] at h; cases h
theorem hpm_noPanic {P : Prims} (hP : PrimLaws P) {k : Keys} (hl : k.hp.length = 16) (s : Stream) :
    ((secretsOf P k).getHeaderProtectionMask s).1.isPanic = false := by
  unfold Secrets.getHeaderProtectionMask
  rcases e : (varBytesFromStream (secretsOf P k).cipherSuite.sampleLen) s with ⟨o, s'⟩
  cases o with
  | ok b =>
    obtain ⟨bs, e1, rfl, l⟩ := varBytes_sound _ _ _ _ e
    rw [Rd.bind_ok e]
    obtain ⟨m, hm⟩ := hpMask_noPanic hP hl l
    show (hpMaskAes128Ecb P k.hp bs).isPanic = false
    rw [hm]; rfl
  | err w => rw [Rd.bind_err e]; rfl
  | panic w => have := varBytes_noPanic (secretsOf P k).cipherSuite.sampleLen s; rw [e] at this; cases this
theorem getRemoteHpMask_eq {P : Prims} {c : Connection} {sp : PnSpace} {k : Keys} (hk : c.remoteSecrets sp = .ok (secretsOf P k)) (s : Stream) :
    c.getRemoteHpMask sp s = (secretsOf P k).getHeaderProtectionMask s := by
  unfold Connection.getRemoteHpMask
  rw [Rd.bind_ok (by rw [Rd.lift_apply, hk])]
theorem getLocalHpMask_eq {P : Prims} {c : Connection} {sp : PnSpace} {k : Keys} (hk : c.localSecrets sp = .ok (secretsOf P k)) (s : Stream) :
    c.getLocalHpMask sp s = (secretsOf P k).getHeaderProtectionMask s := by
  unfold Connection.getLocalHpMask
  rw [Rd.bind_ok (by rw [Rd.lift_apply, hk])]
theorem getRemoteHpMask_run {P : Prims} {c : Connection} {sp : PnSpace} {k : Keys} (hk : c.remoteSecrets sp = .ok (secretsOf P k))
    {smp : Bytes} (hl : smp.length = 16) (s : Stream) :
    (c.getRemoteHpMask sp (makeResultStream smp ++ s)).1 = hpMaskAes128Ecb P k.hp smp := by rw [getRemoteHpMask_eq hk, hpm_run hl]
theorem getRemoteHpMask_inv {P : Prims} {c : Connection} {sp : PnSpace} {k : Keys} (hk : c.remoteSecrets sp = .ok (secretsOf P k))
    {s : Stream} {m : Mask} (h : (c.getRemoteHpMask sp s).1 = .ok m) :
    ∃ smp s', s = makeResultStream smp ++ s' ∧ smp.length = 16 ∧ hpMaskAes128Ecb P k.hp smp = .ok m :=
  hpm_inv (by rw [← getRemoteHpMask_eq hk]; exact h)
theorem getRemoteHpMask_noPanic {P : Prims} (hP : PrimLaws P) {c : Connection} {sp : PnSpace} {k : Keys}
    (hk : c.remoteSecrets sp = .ok (secretsOf P k)) (hl : k.hp.length = 16) (s : Stream) : (c.getRemoteHpMask sp s).1.isPanic = false := by
  rw [getRemoteHpMask_eq hk]; exact hpm_noPanic hP hl s
theorem getRemoteHpMask_noKeys {c : Connection} {sp : PnSpace} {e : Error} (hk : c.remoteSecrets sp = .err e) (s : Stream) :
    (c.getRemoteHpMask sp s).1 = .err e := by
  unfold Connection.getRemoteHpMask
  rw [Rd.bind_err (by rw [Rd.lift_apply, hk])]

theorem xorPn_ok {b : Bytes} {m : Mask} {x : Bytes} : xorPnProtection b m = .ok x ↔ b.length ≤ 4 ∧ x = b.zipWith (· ^^^ ·) (maskList m) := by
  unfold xorPnProtection
  split
  · constructor
    · intro h; cases h
    · intro h; omega
  · constructor
    · intro h; cases h; exact ⟨by omega, rfl⟩
    · intro h; rw [h.2]; rfl

theorem decrypt_eq {P : Prims} {c : Connection} {sp : PnSpace} {k : Keys} (hk : c.remoteSecrets sp = .ok (secretsOf P k))
    (data ad : Bytes) (pn : U64) :
    c.decryptRemotePayload sp data ad pn = internalDecryptAes128Gcm P k.key (packetNonce k.iv pn) ad data := by
  unfold Connection.decryptRemotePayload
  rw [hk, Out.ok_bind]
  rfl
theorem internalDecrypt_ok {P : Prims} {key iv ad data p : Bytes} : internalDecryptAes128Gcm P key iv ad data = .ok p ↔
    ∃ ct tag, data = ct ++ tag ∧ tag.length = 16 ∧ P.gcmOpen key iv ad ct tag = some p := by
  unfold internalDecryptAes128Gcm
  constructor
  · intro h
    split at h
    · cases h
    · rename_i hl
      have hl' : 16 ≤ data.length := Nat.not_lt.mp hl
      dsimp only at h
      split at h
      · cases h
        rename_i hg
        exact ⟨_, _, (List.take_append_drop (data.length - 16) data).symm, by rw [List.length_drop]; omega, hg⟩
      · cases h
  · rintro ⟨ct, tag, rfl, hl, h⟩
    have e : (ct ++ tag).length - AES_128_GCM_TAG_LEN = ct.length := by
      show (ct ++ tag).length - 16 = ct.length
      rw [List.length_append]; omega
    have e' : (ct ++ tag).length - 16 = ct.length := e
    rw [if_neg (by show ¬ (ct ++ tag).length < 16; rw [List.length_append]; omega)]
    dsimp only
    rw [e, e', List.drop_left, List.take_left, h]
theorem internalDecrypt_panic {P : Prims} {key iv ad data : Bytes} : (internalDecryptAes128Gcm P key iv ad data).isPanic = true ↔
    data.length < 16 := by
  unfold internalDecryptAes128Gcm
  split
  · rename_i h; exact ⟨fun _ => h, fun _ => rfl⟩
  · rename_i h
    constructor
    · intro h'
      dsimp only at h'
      split at h' <;> cases h'
    · intro h'; exact absurd h' h

/-- Everything up to the ciphertext. -/
theorem tail_eval {P : Prims} {bp : Profile} {c : Connection} {sp : PnSpace} {whole : Bool} {lenOf : Mask → Out Nat} {hdr : Mask → Out Bytes}
    {payload : Nat → Rd Bytes} {mid : Bytes} {k : Keys} (hk : c.remoteSecrets sp = .ok (secretsOf P k))
    {pnP smp : Bytes} {s s1 : Stream} {m : Mask} {n : Nat} {pn : U64}
    (hp : pnP.length = 4) (hs : s = makeResultStream smp ++ s1) (hl : smp.length = 16) (hm : hpMaskAes128Ecb P k.hp smp = .ok m)
    (hn : lenOf m = .ok n) (hn4 : n ≤ 4)
    (hr : c.reconstructRemotePn bp sp (if whole then pnP.zipWith (· ^^^ ·) (maskList m) else (pnP.zipWith (· ^^^ ·) (maskList m)).take n) = .ok pn) :
    tail bp c sp whole lenOf hdr payload mid (makeResultStream pnP ++ s) =
      (payload n >>= tailEnd c sp hdr mid m ((pnP.zipWith (· ^^^ ·) (maskList m)).take n) pn) s := by
  have hx : xorPnProtection pnP m = .ok (pnP.zipWith (· ^^^ ·) (maskList m)) := xorPn_ok.mpr ⟨by omega, rfl⟩
  have ht : sliceTo (pnP.zipWith (· ^^^ ·) (maskList m)) n = .ok ((pnP.zipWith (· ^^^ ·) (maskList m)).take n) :=
    sliceTo_ok.mpr ⟨by simp [hp, maskList]; omega, rfl⟩
  unfold tail
  rw [Rd.bind_ok (varBytes_reads' hp s), Rd.bind_ok (Rd.cloned_apply s)]
  rw [Rd.bind_ok (a := m) (s' := s) (by rw [Rd.lift_apply, hs, getRemoteHpMask_run hk hl, hm])]
  rw [Rd.bind_ok (a := n) (s' := s) (by rw [Rd.lift_apply, hn])]
  rw [Rd.bind_ok (a := pnP.zipWith (· ^^^ ·) (maskList m)) (s' := s) (by rw [Rd.lift_apply, hx])]
  rw [Rd.bind_ok (s' := s) (by rw [Rd.lift_apply, ht])]
  rw [Rd.bind_ok (a := pn) (s' := s) (by rw [Rd.lift_apply, hr])]

theorem tailEnd_run {P : Prims} {c : Connection} {sp : PnSpace} {hdr : Mask → Out Bytes} {mid : Bytes} {m : Mask} {pnB : Bytes} {pn : U64}
    {k : Keys} (hk : c.remoteSecrets sp = .ok (secretsOf P k)) {ct tag hb pl : Bytes} {fs : List Frame}
    (hh : hdr m = .ok hb) (ht : tag.length = 16) (ho : P.gcmOpen k.key (packetNonce k.iv pn) (hb ++ mid ++ pnB) ct tag = some pl)
    (hf : (deserializeFrames (makeResultStream pl)).1 = .ok fs) (s : Stream) :
    tailEnd c sp hdr mid m pnB pn (ct ++ tag) s = (.ok (m, pnB, pn, fs), s) := by
  unfold tailEnd
  rw [Rd.bind_ok (a := hb) (s' := s) (by rw [Rd.lift_apply, hh])]
  rw [Rd.bind_ok (a := pl) (s' := s) (by rw [Rd.lift_apply, decrypt_eq hk, internalDecrypt_ok.mpr ⟨ct, tag, rfl, ht, ho⟩])]
  rw [Rd.bind_ok (a := fs) (s' := s) (by rw [Rd.lift_apply, hf])]
  rfl

theorem tailEnd_inv {P : Prims} {c : Connection} {sp : PnSpace} {hdr : Mask → Out Bytes} {mid : Bytes} {m : Mask} {pnB : Bytes} {pn : U64}
    {k : Keys} (hk : c.remoteSecrets sp = .ok (secretsOf P k)) {data : Bytes} {s s' : Stream} {r : Mask × Bytes × U64 × List Frame}
    (h : tailEnd c sp hdr mid m pnB pn data s = (.ok r, s')) :
    ∃ ct tag hb pl fs, hdr m = .ok hb ∧ data = ct ++ tag ∧ tag.length = 16 ∧
      P.gcmOpen k.key (packetNonce k.iv pn) (hb ++ mid ++ pnB) ct tag = some pl ∧
      (deserializeFrames (makeResultStream pl)).1 = .ok fs ∧ r = (m, pnB, pn, fs) ∧ s' = s := by
  unfold tailEnd at h
  obtain ⟨hb, s1, h1, h⟩ := Rd.bind_eq_ok h
  obtain ⟨pl, s2, h2, h⟩ := Rd.bind_eq_ok h
  obtain ⟨fs, s3, h3, h⟩ := Rd.bind_eq_ok h
  rw [Rd.lift_apply] at h1 h2 h3
  rw [decrypt_eq hk] at h2
  cases h
  obtain ⟨ct, tag, e1, e2, e3⟩ := internalDecrypt_ok.mp (congrArg Prod.fst h2)
  exact ⟨ct, tag, hb, pl, fs, congrArg Prod.fst h1, e1, e2, e3, congrArg Prod.fst h3, rfl,
    ((congrArg Prod.snd h1).trans ((congrArg Prod.snd h2 : s1 = s2).trans (congrArg Prod.snd h3 : s2 = s'))).symm⟩

/-- Inversion of a successful tail. -/
theorem tail_inv {P : Prims} {bp : Profile} {c : Connection} {sp : PnSpace} {whole : Bool} {lenOf : Mask → Out Nat} {hdr : Mask → Out Bytes}
    {payload : Nat → Rd Bytes} {mid : Bytes} {k : Keys} (hk : c.remoteSecrets sp = .ok (secretsOf P k))
    {s s' : Stream} {m : Mask} {pnB : Bytes} {pn : U64} {fs : List Frame}
    (h : tail bp c sp whole lenOf hdr payload mid s = (.ok (m, pnB, pn, fs), s')) :
    ∃ pnP s1 smp s2 n ct tag hb pl, s = makeResultStream pnP ++ s1 ∧ pnP.length = 4 ∧ s1 = makeResultStream smp ++ s2 ∧ smp.length = 16 ∧
      hpMaskAes128Ecb P k.hp smp = .ok m ∧ lenOf m = .ok n ∧ n ≤ 4 ∧ pnB = (pnP.zipWith (· ^^^ ·) (maskList m)).take n ∧
      c.reconstructRemotePn bp sp (if whole then pnP.zipWith (· ^^^ ·) (maskList m) else pnB) = .ok pn ∧
      payload n s1 = (.ok (ct ++ tag), s') ∧ tag.length = 16 ∧ hdr m = .ok hb ∧
      P.gcmOpen k.key (packetNonce k.iv pn) (hb ++ mid ++ pnB) ct tag = some pl ∧
      (deserializeFrames (makeResultStream pl)).1 = .ok fs := by
  unfold tail at h
  obtain ⟨pnP, s1, h1, g1⟩ := Rd.bind_eq_ok h
  obtain ⟨off, s2, h2, g2⟩ := Rd.bind_eq_ok g1
  obtain ⟨m', s3, h3, g3⟩ := Rd.bind_eq_ok g2
  obtain ⟨n, s4, h4, g4⟩ := Rd.bind_eq_ok g3
  obtain ⟨pnU, s5, h5, g5⟩ := Rd.bind_eq_ok g4
  obtain ⟨pnB', s6, h6, g6⟩ := Rd.bind_eq_ok g5
  obtain ⟨pn', s7, h7, g7⟩ := Rd.bind_eq_ok g6
  obtain ⟨data, s8, h8, g8⟩ := Rd.bind_eq_ok g7
  clear h g1 g2 g3 g4 g5 g6 g7
  rw [Rd.lift_apply] at h3 h4 h5 h6 h7
  obtain ⟨e2, e2'⟩ := Prod.mk.inj (h2 : (Out.ok s1, s1) = _)
  obtain ⟨e3, e3'⟩ := Prod.mk.inj h3
  obtain ⟨e4, e4'⟩ := Prod.mk.inj h4
  obtain ⟨e5, e5'⟩ := Prod.mk.inj h5
  obtain ⟨e6, e6'⟩ := Prod.mk.inj h6
  obtain ⟨e7, e7'⟩ := Prod.mk.inj h7
  cases e2
  subst e2' e3' e4' e5' e6' e7'
  obtain ⟨ct, tag, hb, pl, fs', t1, t2, t3, t4, t5, t6, t7⟩ := tailEnd_inv hk g8
  cases t6
  subst t2 t7
  obtain ⟨bs, b1, b2, b3⟩ := varBytes_sound _ _ _ _ h1
  subst b2
  obtain ⟨smp, s9, m1, m2, m3⟩ := getRemoteHpMask_inv hk e3
  obtain ⟨x1, x2⟩ := xorPn_ok.mp e5
  subst x2
  obtain ⟨y1, y2⟩ := sliceTo_ok.mp e6
  subst y2
  refine ⟨bs, s1, smp, s9, n, ct, tag, hb, pl, b1, b3, m1, m2, m3, e4, ?_, rfl, e7, h8, t3, t1, t4, t5⟩
  have : (bs.zipWith (· ^^^ ·) (maskList m)).length ≤ 4 := by simp [b3, maskList]
  omega

/-- Without keys the tail is an error. -/
theorem tail_noKeys {bp : Profile} {c : Connection} {sp : PnSpace} {whole : Bool} {lenOf : Mask → Out Nat} {hdr : Mask → Out Bytes}
    {payload : Nat → Rd Bytes} {mid : Bytes} {e : Error} (hk : c.remoteSecrets sp = .err e) (s : Stream) :
    (tail bp c sp whole lenOf hdr payload mid s).1.isErr = true := by
  unfold tail
  rcases h : varBytesFromStream 4 s with ⟨o, s1⟩
  cases o with
  | ok b =>
    rw [Rd.bind_ok h, Rd.bind_ok (Rd.cloned_apply s1), Rd.bind_err (e := e) (s' := s1) (by rw [Rd.lift_apply, getRemoteHpMask_noKeys hk])]
    rfl
  | err w => rw [Rd.bind_err h]; rfl
  | panic w => have := varBytes_noPanic 4 s; rw [h] at this; cases this

/-- Inversion of a panic. -/
theorem Rd.bind_isPanic {m : Rd α} {f : α → Rd β} {s : Stream} (h : ((m >>= f) s).1.isPanic = true) :
    (m s).1.isPanic = true ∨ ∃ a s', m s = (.ok a, s') ∧ (f a s').1.isPanic = true := by
  rw [Rd.bind_apply] at h
  rcases hm : m s with ⟨o, s'⟩
  rw [hm] at h
  cases o with
  | ok a => exact .inr ⟨a, s', rfl, h⟩
  | err e => cases h
  | panic w => exact .inl rfl
theorem Rd.bind_isPanic' {m : Rd α} {f : α → Rd β} {s : Stream} (h : ((m >>= f) s).1.isPanic = true) (hm : NoPanic m) :
    ∃ a s', m s = (.ok a, s') ∧ (f a s').1.isPanic = true := by
  rcases Rd.bind_isPanic h with h | h
  · rw [hm s] at h; cases h
  · exact h
theorem Rd.lift_bind_isPanic {x : Out α} {f : α → Rd β} {s : Stream} (h : ((Rd.lift x >>= f) s).1.isPanic = true) (hx : x.isPanic = false) :
    ∃ a, x = .ok a ∧ (f a s).1.isPanic = true := by
  obtain ⟨a, s', e, h⟩ := Rd.bind_isPanic' h (NoPanic.lift hx)
  rw [Rd.lift_apply] at e
  cases e
  exact ⟨a, rfl, h⟩

theorem tail_panic {P : Prims} (hP : PrimLaws P) {bp : Profile} {c : Connection} {sp : PnSpace} {whole : Bool} {lenOf : Mask → Out Nat}
    {hdr : Mask → Out Bytes} {payload : Nat → Rd Bytes} {mid : Bytes} {k : Keys} (hk : c.remoteSecrets sp = .ok (secretsOf P k))
    (hkl : k.hp.length = 16) (hlen : ∀ m, ∃ n, lenOf m = .ok n ∧ n ≤ 4) (hhdr : ∀ m, (hdr m).isPanic = false)
    (hack : (c.pnInfo sp).largestRemoteAck = none) {s : Stream}
    (h : (tail bp c sp whole lenOf hdr payload mid s).1.isPanic = true) :
    ∃ pnP s1 n m smp s3, s = makeResultStream pnP ++ s1 ∧ pnP.length = 4 ∧ lenOf m = .ok n ∧
      s1 = makeResultStream smp ++ s3 ∧ smp.length = 16 ∧ hpMaskAes128Ecb P k.hp smp = .ok m ∧
      ((payload n s1).1.isPanic = true ∨ ∃ data s2, payload n s1 = (.ok data, s2) ∧ data.length < 16) := by
  unfold tail at h
  obtain ⟨pnP, s1, h1, g1⟩ := Rd.bind_isPanic' h (varBytes_noPanic 4)
  obtain ⟨off, s2, h2, g2⟩ := Rd.bind_isPanic' g1 NoPanic.cloned
  obtain ⟨m, e3, g3⟩ := Rd.lift_bind_isPanic g2 (getRemoteHpMask_noPanic hP hk hkl _)
  obtain ⟨n, hn, hn4⟩ := hlen m
  obtain ⟨bs, b1, b2, b3⟩ := varBytes_sound _ _ _ _ h1
  subst b2
  obtain ⟨e2, e2'⟩ := Prod.mk.inj (h2 : (Out.ok s1, s1) = _)
  cases e2
  subst e2'
  obtain ⟨smp, s9, m1, m2, m3⟩ := getRemoteHpMask_inv hk e3
  obtain ⟨n', e4, g4⟩ := Rd.lift_bind_isPanic g3 (by rw [hn]; rfl)
  rw [hn] at e4
  cases e4
  have hx : xorPnProtection bs m = .ok (bs.zipWith (· ^^^ ·) (maskList m)) := xorPn_ok.mpr ⟨by omega, rfl⟩
  have hlx : (bs.zipWith (· ^^^ ·) (maskList m)).length = 4 := by simp [b3, maskList]
  obtain ⟨x, e5, g5⟩ := Rd.lift_bind_isPanic g4 (by rw [hx]; rfl)
  rw [hx] at e5
  cases e5
  have hy := sliceTo_ok.mpr ⟨(by omega : n ≤ (bs.zipWith (· ^^^ ·) (maskList m)).length), rfl⟩
  obtain ⟨y, e6, g6⟩ := Rd.lift_bind_isPanic g5 (by rw [hy]; rfl)
  rw [hy] at e6
  cases e6
  have hle : (if whole then bs.zipWith (· ^^^ ·) (maskList m) else (bs.zipWith (· ^^^ ·) (maskList m)).take n).length ≤ 4 := by
    split
    · omega
    · rw [List.length_take]; omega
  obtain ⟨pn, e7, g7⟩ := Rd.lift_bind_isPanic g6 (by rw [reconstruct_none bp c sp _ hle hack]; rfl)
  clear h g1 g2 g3 g4 g5 g6
  refine ⟨bs, s1, n, m, smp, s9, b1, b3, hn, m1, m2, m3, ?_⟩
  rcases Rd.bind_isPanic g7 with h | ⟨data, s2, e8, h⟩
  · exact .inl h
  · refine .inr ⟨data, s2, e8, ?_⟩
    unfold tailEnd at h
    obtain ⟨hb, e9, h⟩ := Rd.lift_bind_isPanic h (hhdr m)
    rcases Rd.bind_isPanic h with h | ⟨fd, s3, e10, h⟩
    · rw [Rd.lift_apply, decrypt_eq hk] at h
      exact internalDecrypt_panic.mp h
    · obtain ⟨fs, e11, h⟩ := Rd.lift_bind_isPanic h (frames_noPanic _)
      cases h

/-! ### Sealing -/

/-- The common end of the two `serialize` functions. -/
def sealTail (c : Connection) (sp : PnSpace) (header : LongPacketHeader) (mid pnBytes : Bytes) (pn : U64) (pnLength : Nat) (payloadBytes : Bytes) :
    Out Bytes := do
  let headerBytes ← header.toBytes
  let protectedPayload ← c.encryptLocalPayload sp payloadBytes (headerBytes ++ mid ++ pnBytes) pn
  let sampleBytes ← sliceFrom protectedPayload (4 - pnLength)
  let mask ← (c.getLocalHpMask sp (makeResultStream sampleBytes)).1
  let protectedPn ← xorPnProtection pnBytes mask
  let protectedHeaderBytes ← (header.addProtection mask).toBytes
  pure (protectedHeaderBytes ++ mid ++ protectedPn ++ protectedPayload)

theorem initial_serialize_eq (p : PacketInitial) (c : Connection) : p.serialize c = (do
    let payloadBytes ← serializeFrames p.packetPayload false
    let pnLength ← p.header.packetNumberLength
    let protectedLen ← c.getLocalProtectedPayloadLen .initial payloadBytes.length
    let lengthBytes ← encodeVarInt (BitVec.ofNat 64 (protectedLen + pnLength))
    let tokenLengthBytes ← encodeVarInt (BitVec.ofNat 64 p.token.length)
    sealTail c .initial p.header (tokenLengthBytes ++ p.token ++ lengthBytes) p.packetNumberBytes p.packetNumber pnLength payloadBytes) := by
  simp only [PacketInitial.serialize, sealTail, List.append_assoc]
theorem handshake_serialize_eq (p : PacketHandshake) (c : Connection) : p.serialize c = (do
    let payloadBytes ← serializeFrames p.packetPayload false
    let pnLength ← p.header.packetNumberLength
    let protectedLen ← c.getLocalProtectedPayloadLen .handshake payloadBytes.length
    let lengthBytes ← encodeVarInt (BitVec.ofNat 64 (protectedLen + pnLength))
    sealTail c .handshake p.header lengthBytes p.packetNumberBytes p.packetNumber pnLength payloadBytes) := by
  simp only [PacketHandshake.serialize, sealTail, List.append_assoc]

/-- Long headers that can be written (as `LongOk` of Props/Header.lean). -/
structure HeaderOk (h : LongPacketHeader) : Prop where
  version : h.version.toNat ≠ 0
  noVn : h.versionNegotiation = none
  dlen : h.destinationConnectionIdLength.toNat ≤ 20
  dfits : cidVal h.destinationConnectionId < 256 ^ h.destinationConnectionIdLength.toNat
  slen : h.sourceConnectionIdLength.toNat ≤ 20
  sfits : cidVal h.sourceConnectionId < 256 ^ h.sourceConnectionIdLength.toNat

theorem headerOk_bytes {h : LongPacketHeader} (hk : HeaderOk h) :
    ∃ hb, LongFields h (h.headerByte :: hb) ∧ ∀ b pr, LongPacketHeader.toBytes { h with headerByte := b, isProtected := pr } = .ok (b :: hb) := by
  obtain ⟨h1, h2, h3, h4, h5, h6⟩ := hk
  obtain ⟨bs, e, hf⟩ := long_toBytes_fields h1 h2 h3 h5 h4 h6
  have hf' := hf
  obtain ⟨vb, d, s, rfl, _⟩ := hf'
  refine ⟨vb ++ [h.destinationConnectionIdLength] ++ d ++ [h.sourceConnectionIdLength] ++ s, by simpa using hf, ?_⟩
  intro b pr
  unfold LongPacketHeader.toBytes at e ⊢
  obtain ⟨x, hx, e⟩ := Out.bind_eq_ok e
  obtain ⟨y, hy, e⟩ := Out.bind_eq_ok e
  simp only [hx, hy, Out.ok_bind]
  have e' : [h.headerByte] ++ toBeBytes 4 h.version ++ [h.destinationConnectionIdLength] ++ x ++ [h.sourceConnectionIdLength] ++ y =
    [h.headerByte] ++ vb ++ [h.destinationConnectionIdLength] ++ d ++ [h.sourceConnectionIdLength] ++ s := by injection e
  simp only [List.append_assoc] at e'
  have e2 := List.append_cancel_left e'
  show Out.ok _ = Out.ok _
  simp only [List.append_assoc, e2]
  rfl

theorem localEncrypt_eq {P : Prims} {c : Connection} {sp : PnSpace} {k : Keys} (hk : c.localSecrets sp = .ok (secretsOf P k))
    (payload ad : Bytes) (pn : U64) :
    c.encryptLocalPayload sp payload ad pn = internalEncryptAes128Gcm P k.key (packetNonce k.iv pn) ad payload := by
  unfold Connection.encryptLocalPayload
  rw [hk, Out.ok_bind]
  rfl
theorem sliceFrom_ok {b : Bytes} {n : Nat} {x : Bytes} : sliceFrom b n = .ok x ↔ n ≤ b.length ∧ x = b.drop n := by
  unfold sliceFrom
  split
  · constructor
    · intro h; cases h; exact ⟨by assumption, rfl⟩
    · intro h; rw [h.2]
  · constructor
    · intro h; cases h
    · intro h; omega

theorem drop_sample (pnB x : Bytes) (h : pnB.length ≤ 4) : (pnB ++ x).drop 4 = x.drop (4 - pnB.length) := by
  rw [List.drop_append, List.drop_eq_nil_of_le h, List.nil_append]

/-- Sealing gives a packet protected as in RFC 9001. -/
theorem sealTail_sound {P : Prims} {c : Connection} {sp : PnSpace} {k : Keys} (hk : c.localSecrets sp = .ok (secretsOf P k))
    (hiv : k.iv.length = 12) {h : LongPacketHeader} (hh : HeaderOk h) (hp : h.isProtected = false) {mid pnB : Bytes} {pn : U64} {payload out : Bytes}
    (hl : pnB.length ≤ 4)
    (hs : sealTail c sp h mid pnB pn pnB.length payload = .ok out) :
    ∃ hb, LongFields h (h.headerByte :: hb) ∧ Protected P k 0x0f h.headerByte (hb ++ mid) pnB pn.toNat payload out := by
  obtain ⟨hb, hf, hby⟩ := headerOk_bytes hh
  refine ⟨hb, hf, ?_⟩
  unfold sealTail at hs
  obtain ⟨h1, e1, s1⟩ := Out.bind_eq_ok hs
  have e1' := hby h.headerByte h.isProtected
  rw [show ({ h with headerByte := h.headerByte, isProtected := h.isProtected } : LongPacketHeader) = h from rfl, e1] at e1'
  cases e1'
  obtain ⟨pp, e2, s2⟩ := Out.bind_eq_ok s1
  obtain ⟨sb, e3, s3⟩ := Out.bind_eq_ok s2
  obtain ⟨m, e4, s4⟩ := Out.bind_eq_ok s3
  obtain ⟨pw, e5, s5⟩ := Out.bind_eq_ok s4
  obtain ⟨hw, e6, s6⟩ := Out.bind_eq_ok s5
  rw [localEncrypt_eq hk] at e2
  unfold internalEncryptAes128Gcm at e2
  split at e2
  · cases e2
  rename_i ct tag hseal
  cases e2
  obtain ⟨f1, f2⟩ := sliceFrom_ok.mp e3
  rw [getLocalHpMask_eq hk] at e4
  obtain ⟨smp, s', g1, g2, g3⟩ := hpm_inv e4
  obtain ⟨r, hr⟩ := hpMask_ok.mp g3
  obtain ⟨x1, x2⟩ := xorPn_ok.mp e5
  have e6' := hby (h.headerByte ^^^ (m.m0 &&& 0x0f)) true
  have ea : h.addProtection m = { h with headerByte := h.headerByte ^^^ (m.m0 &&& 0x0f), isProtected := true } := by
    unfold LongPacketHeader.addProtection
    rw [hp]; rfl
  rw [← ea, e6] at e6'
  cases e6'
  cases s6
  have hsm : smp = sb.take 16 ∧ 16 ≤ sb.length := by
    have hlen : sb.length = smp.length + s'.length := by
      have := congrArg List.length g1
      simpa using this
    refine ⟨?_, by omega⟩
    have e16 : List.take 16 (makeResultStream sb) = makeResultStream (sb.take 16) := by simp [makeResultStream, List.map_take]
    refine (makeResultStream_inj ?_).symm
    rw [← e16, g1, List.take_left' (by simp [g2])]
  have hdrop : (pnB ++ ct ++ tag).drop 4 = sb := by rw [List.append_assoc, drop_sample _ _ hl, f2]
  refine ⟨toBeBytes 8 pn, ct, tag, m.m0, m.m1, m.m2, m.m3, m.m4, r, toBeBytes_length _ _, beNat_toBeBytes' 8 pn, ?_, ?_, ?_, ?_⟩
  · rw [← packetNonce_eq k.iv pn (by omega)]
    simpa using hseal
  · have := congrArg List.length hdrop
    rw [List.length_drop] at this
    omega
  · rw [hdrop, ← hsm.1]; exact hr
  · rw [x2]
    simp [maskList]

theorem longFields_length {h : LongPacketHeader} {bs : Bytes} (hh : HeaderOk h) (hf : LongFields h bs) : bs.length ≤ 47 := by
  obtain ⟨vb, d, s, rfl, l1, _, l2, l3, _⟩ := hf
  have := hh.dlen
  have := hh.slen
  simp only [List.length_append, List.length_cons, List.length_nil]
  omega

/-- Sealing succeeds. -/
theorem sealTail_total {P : Prims} (hP : PrimLaws P) {c : Connection} {sp : PnSpace} {k : Keys} (hk : c.localSecrets sp = .ok (secretsOf P k))
    (hkl : KeyLens k) {h : LongPacketHeader} (hh : HeaderOk h) (hp : h.isProtected = false) {mid pnB : Bytes} {pn : U64} {payload : Bytes}
    (hl : pnB.length ≤ 4) (hmin : 4 ≤ pnB.length + payload.length) (hmid : mid.length < 2 ^ 29) (hpl : payload.length < 2 ^ 30) :
    ∃ out, sealTail c sp h mid pnB pn pnB.length payload = .ok out := by
  obtain ⟨hb, hf, hby⟩ := headerOk_bytes hh
  have hbl := longFields_length hh hf
  have e1 := hby h.headerByte h.isProtected
  rw [show ({ h with headerByte := h.headerByte, isProtected := h.isProtected } : LongPacketHeader) = h from rfl] at e1
  obtain ⟨ct, tag, hseal⟩ := hP.sealing k.key (packetNonce k.iv pn) (h.headerByte :: hb ++ mid ++ pnB) payload hkl.2.2
    (by rw [packetNonce_length]; exact hkl.2.1) (by rw [List.length_append, List.length_append]; omega) hpl
  obtain ⟨lc, lt⟩ := hP.seal_length _ _ _ _ _ _ hseal
  have hsl : sliceFrom (ct ++ tag) (4 - pnB.length) = .ok ((ct ++ tag).drop (4 - pnB.length)) :=
    sliceFrom_ok.mpr ⟨by rw [List.length_append]; omega, rfl⟩
  have hdl : 16 ≤ ((ct ++ tag).drop (4 - pnB.length)).length := by rw [List.length_drop, List.length_append]; omega
  obtain ⟨m, hm⟩ := hpMask_noPanic hP hkl.1 (s := ((ct ++ tag).drop (4 - pnB.length)).take 16) (by rw [List.length_take]; omega)
  have hmask : (c.getLocalHpMask sp (makeResultStream ((ct ++ tag).drop (4 - pnB.length)))).1 = .ok m := by
    rw [getLocalHpMask_eq hk]
    conv => lhs; rw [← List.take_append_drop 16 ((ct ++ tag).drop (4 - pnB.length))]
    rw [makeResultStream_append, hpm_run (by rw [List.length_take]; omega), hm]
  have e6 := hby (h.headerByte ^^^ (m.m0 &&& 0x0f)) true
  have ea : h.addProtection m = { h with headerByte := h.headerByte ^^^ (m.m0 &&& 0x0f), isProtected := true } := by
    unfold LongPacketHeader.addProtection
    rw [hp]; rfl
  rw [← ea] at e6
  unfold sealTail
  rw [e1, Out.ok_bind, localEncrypt_eq hk]
  unfold internalEncryptAes128Gcm
  rw [hseal]
  simp only [Out.ok_bind, hsl, hmask, xorPn_ok.mpr ⟨hl, rfl⟩, e6]
  exact ⟨_, rfl⟩

theorem pnLength_eq {h : LongPacketHeader} {n : Nat} : h.packetNumberLength = .ok n ↔ h.isProtected = false ∧ n = h.headerByte.toNat % 4 + 1 := by
  have k : ∀ b : U8, (b &&& 0x03).toNat = b.toNat % 4 := by decide +kernel
  unfold LongPacketHeader.packetNumberLength
  rw [k]
  split
  · rename_i hp
    constructor
    · intro h; cases h
    · intro h; rw [hp] at h; cases h.1
  · rename_i hp
    constructor
    · intro h; cases h; exact ⟨by simpa using hp, rfl⟩
    · intro h; rw [h.2]

theorem protectedLen_eq {P : Prims} {c : Connection} {sp : PnSpace} {k : Keys} (hk : c.localSecrets sp = .ok (secretsOf P k)) (n : Nat) :
    c.getLocalProtectedPayloadLen sp n = .ok (16 + n) := by
  unfold Connection.getLocalProtectedPayloadLen
  rw [hk]
  rfl

theorem ofNat64_toNat {n : Nat} (h : n < 2 ^ 64) : (BitVec.ofNat 64 n).toNat = n := by rw [BitVec.toNat_ofNat]; exact Nat.mod_eq_of_lt h

theorem isVarInt_len {bs : Bytes} {v : Nat} (h : IsVarInt bs v) : bs.length ≤ 8 := by
  obtain ⟨k, hk, hl, _⟩ := h
  rw [hl]
  match k, hk with
  | 0, _ | 1, _ | 2, _ | 3, _ => decide

/-- A serialized Initial packet is an Initial packet of RFC 9000 and RFC 9001. -/
theorem initial_serialize_wire {P : Prims} {c : Connection} {k : Keys} (hk : c.localSecrets .initial = .ok (secretsOf P k))
    (hiv : k.iv.length = 12) {p : PacketInitial} (hh : HeaderOk p.header) (hkind : packetKind p.header.headerByte p.header.version = .initial)
    (hn : p.header.headerByte.toNat % 4 + 1 = p.packetNumberBytes.length) {payload out : Bytes}
    (hpl : serializeFrames p.packetPayload false = .ok payload) (hs : payload.length + 20 < 2 ^ 64) (ht : p.token.length < 2 ^ 64)
    (h : p.serialize c = .ok out) :
    InitialWire P k p.header p.token p.packetNumberBytes p.packetNumber.toNat payload out := by
  rw [initial_serialize_eq] at h
  obtain ⟨pl, e1, h1⟩ := Out.bind_eq_ok h
  obtain ⟨n, e2, h2⟩ := Out.bind_eq_ok h1
  obtain ⟨l, e3, h3⟩ := Out.bind_eq_ok h2
  obtain ⟨lb, e4, h4⟩ := Out.bind_eq_ok h3
  obtain ⟨tl, e5, h5⟩ := Out.bind_eq_ok h4
  rw [hpl] at e1
  cases e1
  obtain ⟨hp, hn'⟩ := pnLength_eq.mp e2
  rw [protectedLen_eq hk] at e3
  cases e3
  rw [hn] at hn'
  subst hn'
  have h4' : p.packetNumberBytes.length ≤ 4 := by omega
  obtain ⟨hb, hf, hprot⟩ := sealTail_sound hk hiv hh hp h4' h5
  have i1 := encodeVarInt_isVarInt e4
  have i2 := encodeVarInt_isVarInt e5
  rw [ofNat64_toNat (by omega)] at i1 i2
  exact ⟨hb, tl, lb, hf, hkind, hn, i2, by rw [show p.packetNumberBytes.length + payload.length + 16 = 16 + payload.length + p.packetNumberBytes.length by omega]; exact i1,
    by simpa [List.append_assoc] using hprot⟩
theorem initial_serialize_total {P : Prims} (hP : PrimLaws P) {c : Connection} {k : Keys} (hk : c.localSecrets .initial = .ok (secretsOf P k))
    (hkl : KeyLens k) {p : PacketInitial} (hh : HeaderOk p.header) (hp : p.header.isProtected = false)
    (hn : p.header.headerByte.toNat % 4 + 1 = p.packetNumberBytes.length) {payload : Bytes}
    (hpl : serializeFrames p.packetPayload false = .ok payload) (hs : payload.length < 2 ^ 30) (ht : p.token.length < 2 ^ 28)
    (hmin : 4 ≤ p.packetNumberBytes.length + payload.length) : ∃ out, p.serialize c = .ok out := by
  obtain ⟨lb, e4⟩ := encodeVarInt_ok (BitVec.ofNat 64 (16 + payload.length + p.packetNumberBytes.length)) (by rw [ofNat64_toNat (by omega)]; omega)
  obtain ⟨tl, e5⟩ := encodeVarInt_ok (BitVec.ofNat 64 p.token.length) (by rw [ofNat64_toNat (by omega)]; omega)
  have l4 := isVarInt_len (encodeVarInt_isVarInt e4)
  have l5 := isVarInt_len (encodeVarInt_isVarInt e5)
  obtain ⟨out, ho⟩ := sealTail_total hP hk hkl hh hp (mid := tl ++ p.token ++ lb) (pnB := p.packetNumberBytes) (pn := p.packetNumber) (payload := payload)
    (by omega) hmin (by simp only [List.length_append]; omega) hs
  rw [initial_serialize_eq, hpl, Out.ok_bind, pnLength_eq.mpr ⟨hp, rfl⟩, Out.ok_bind, protectedLen_eq hk, Out.ok_bind, hn, e4, Out.ok_bind, e5,
    Out.ok_bind]
  exact ⟨out, ho⟩
theorem handshake_serialize_wire {P : Prims} {c : Connection} {k : Keys} (hk : c.localSecrets .handshake = .ok (secretsOf P k))
    (hiv : k.iv.length = 12) {p : PacketHandshake} (hh : HeaderOk p.header) (hkind : packetKind p.header.headerByte p.header.version = .handshake)
    (hn : p.header.headerByte.toNat % 4 + 1 = p.packetNumberBytes.length) {payload out : Bytes}
    (hpl : serializeFrames p.packetPayload false = .ok payload) (hs : payload.length + 20 < 2 ^ 64)
    (h : p.serialize c = .ok out) :
    HandshakeWire P k p.header p.packetNumberBytes p.packetNumber.toNat payload out := by
  rw [handshake_serialize_eq] at h
  obtain ⟨pl, e1, h1⟩ := Out.bind_eq_ok h
  obtain ⟨n, e2, h2⟩ := Out.bind_eq_ok h1
  obtain ⟨l, e3, h3⟩ := Out.bind_eq_ok h2
  obtain ⟨lb, e4, h4⟩ := Out.bind_eq_ok h3
  rw [hpl] at e1
  cases e1
  obtain ⟨hp, hn'⟩ := pnLength_eq.mp e2
  rw [protectedLen_eq hk] at e3
  cases e3
  rw [hn] at hn'
  subst hn'
  have h4' : p.packetNumberBytes.length ≤ 4 := by omega
  obtain ⟨hb, hf, hprot⟩ := sealTail_sound hk hiv hh hp h4' h4
  have i1 := encodeVarInt_isVarInt e4
  rw [ofNat64_toNat (by omega)] at i1
  exact ⟨hb, lb, hf, hkind, hn, by rw [show p.packetNumberBytes.length + payload.length + 16 = 16 + payload.length + p.packetNumberBytes.length by omega]; exact i1,
    hprot⟩
theorem handshake_serialize_total {P : Prims} (hP : PrimLaws P) {c : Connection} {k : Keys} (hk : c.localSecrets .handshake = .ok (secretsOf P k))
    (hkl : KeyLens k) {p : PacketHandshake} (hh : HeaderOk p.header) (hp : p.header.isProtected = false)
    (hn : p.header.headerByte.toNat % 4 + 1 = p.packetNumberBytes.length) {payload : Bytes}
    (hpl : serializeFrames p.packetPayload false = .ok payload) (hs : payload.length < 2 ^ 30)
    (hmin : 4 ≤ p.packetNumberBytes.length + payload.length) : ∃ out, p.serialize c = .ok out := by
  obtain ⟨lb, e4⟩ := encodeVarInt_ok (BitVec.ofNat 64 (16 + payload.length + p.packetNumberBytes.length)) (by rw [ofNat64_toNat (by omega)]; omega)
  have l4 := isVarInt_len (encodeVarInt_isVarInt e4)
  obtain ⟨out, ho⟩ := sealTail_total hP hk hkl hh hp (mid := lb) (pnB := p.packetNumberBytes) (pn := p.packetNumber) (payload := payload)
    (by omega) hmin (by omega) hs
  rw [handshake_serialize_eq, hpl, Out.ok_bind, pnLength_eq.mpr ⟨hp, rfl⟩, Out.ok_bind, protectedLen_eq hk, Out.ok_bind, hn, e4, Out.ok_bind]
  exact ⟨out, ho⟩

/-! ### Opening -/

/-- The facts about a protected packet used by the decoder. -/
theorem protected_facts {P : Prims} (hP : PrimLaws P) {k : Keys} {b first : U8} {mid pnB : Bytes} {pn : U64} {payload out : Bytes}
    (hiv : k.iv.length = 12) (h : Protected P k b first mid pnB pn.toNat payload out) :
    ∃ m ct tag, out = (first ^^^ (m.m0 &&& b)) :: (mid ++ pnB.zipWith (· ^^^ ·) (maskList m) ++ ct ++ tag) ∧
      ct.length = payload.length ∧ tag.length = 16 ∧ 4 ≤ pnB.length + ct.length ∧
      hpMaskAes128Ecb P k.hp (((pnB ++ ct ++ tag).drop 4).take 16) = .ok m ∧
      P.gcmOpen k.key (packetNonce k.iv pn) (first :: mid ++ pnB) ct tag = some payload := by
  obtain ⟨nb, ct, tag, m0, m1, m2, m3, m4, r, h1, h2, h3, h4, h5, h6⟩ := h
  obtain ⟨l1, l2⟩ := hP.seal_length _ _ _ _ _ _ h3
  have hnb : nb = toBeBytes 8 pn := beNat_inj (by rw [h1, toBeBytes_length]) (by rw [h2, beNat_toBeBytes' 8 pn])
  refine ⟨⟨m0, m1, m2, m3, m4⟩, ct, tag, by rw [h6]; simp [maskList], l1, l2, ?_, hpMask_ok.mpr ⟨r, h5⟩, ?_⟩
  · simp only [List.length_append] at h4; omega
  · have := hP.open_seal _ _ _ _ _ _ h3
    rw [hnb, ← packetNonce_eq k.iv pn (by omega)] at this
    simpa using this

theorem zipWith_xor_twice (a m : Bytes) (h : a.length ≤ m.length) : (a.zipWith (· ^^^ ·) m).zipWith (· ^^^ ·) m = a := by
  induction a generalizing m with
  | nil => rfl
  | cons x xs ih =>
    cases m with
    | nil => simp at h
    | cons y ys =>
      simp only [List.zipWith_cons_cons, List.length_cons] at h ⊢
      rw [ih ys (by omega), BitVec.xor_assoc, BitVec.xor_self, BitVec.xor_zero]

theorem lenBytes_reads {bp : Profile} {L : U64} {n : Nat} {bs : Bytes} (h : L.toNat = n + bs.length) : Reads (lenBytes bp L n) bs bs := by
  have e : subUsize bp L.toNat n = .ok bs.length := by
    unfold subUsize
    rw [if_pos (by omega)]
    congr 1; omega
  unfold lenBytes
  exact Reads.bind' (Reads.lift e) (varBytes_reads bs) rfl

/-- Decoding the tail of a packet with a four-byte packet number. -/
theorem tail_reads {P : Prims} {bp : Profile} {c : Connection} {sp : PnSpace} {whole : Bool} {lenOf : Mask → Out Nat}
    {hdr : Mask → Out Bytes} {L : U64} {mid : Bytes} {k : Keys} (hk : c.remoteSecrets sp = .ok (secretsOf P k))
    {first : U8} {hb pnB ct tag payload : Bytes} {m : Mask} {pn : U64} {fs : List Frame}
    (h4 : pnB.length = 4) (ht : tag.length = 16) (hL : L.toNat = 4 + (ct ++ tag).length)
    (hm : hpMaskAes128Ecb P k.hp (((pnB ++ ct ++ tag).drop 4).take 16) = .ok m)
    (ho : P.gcmOpen k.key (packetNonce k.iv pn) (first :: (hb ++ mid) ++ pnB) ct tag = some payload)
    (hlen : lenOf m = .ok 4) (hhdr : hdr m = .ok (first :: hb)) (hr : c.reconstructRemotePn bp sp pnB = .ok pn)
    (hf : (deserializeFrames (makeResultStream payload)).1 = .ok fs) :
    Reads (tail bp c sp whole lenOf hdr (lenBytes bp L) mid) (pnB.zipWith (· ^^^ ·) (maskList m) ++ (ct ++ tag)) (m, pnB, pn, fs) := by
  intro s
  have hx : (pnB.zipWith (· ^^^ ·) (maskList m)).zipWith (· ^^^ ·) (maskList m) = pnB := zipWith_xor_twice _ _ (by simp [maskList, h4])
  have hsm : ((pnB ++ ct ++ tag).drop 4).take 16 = (ct ++ tag).take 16 := by
    rw [List.append_assoc, List.drop_left' h4]
  have hlt : ((ct ++ tag).take 16).length = 16 := by rw [List.length_take, List.length_append]; omega
  rw [makeResultStream_append, List.append_assoc]
  rw [tail_eval hk (n := 4) (m := m) (pn := pn) (smp := (ct ++ tag).take 16) (s1 := makeResultStream ((ct ++ tag).drop 16) ++ s)
    (by simp [maskList, h4]) (by rw [← List.append_assoc, ← makeResultStream_append, List.take_append_drop]) hlt
    (by rw [← hsm]; exact hm) hlen (by omega) (by rw [hx, List.take_of_length_le (by omega), ite_self]; exact hr)]
  rw [hx, List.take_of_length_le (by omega), Rd.bind_ok (lenBytes_reads hL s)]
  exact tailEnd_run hk hhdr ht (by simpa using ho) hf s

theorem kind_xor (b x : U8) (v : U32) : packetKind (b ^^^ (x &&& 0x0f)) v = packetKind b v := by
  have k : ∀ b x : U8, (b ^^^ (x &&& (0x0f : U8))).toNat / 16 = b.toNat / 16 := by
    intro b x
    have : ∀ y : U8, y.toNat / 16 = (y >>> 4).toNat := by decide +kernel
    rw [this, this]
    congr 1
    ext i hi
    simp only [BitVec.getElem_ushiftRight, BitVec.getLsbD_xor, BitVec.getLsbD_and]
    have : (0x0f : U8).getLsbD (4 + i) = false := by
      match i, hi with
      | 0, _ | 1, _ | 2, _ | 3, _ | 4, _ | 5, _ | 6, _ | 7, _ => decide
    rw [this]
    simp
  have k1 := k b x
  unfold packetKind
  have e : (b ^^^ (x &&& 0x0f)).toNat < 128 ↔ b.toNat < 128 := by omega
  rw [k1]
  by_cases h : b.toNat < 128
  · rw [if_pos h, if_pos (e.mpr h)]
  · rw [if_neg h, if_neg (fun h' => h (e.mp h'))]
theorem kind_long {b : U8} {v : U32} (h : packetKind b v ≠ .oneRtt) : 128 ≤ b.toNat := by
  unfold packetKind at h
  split at h
  · exact absurd rfl h
  · omega

/-- A long header as it stands on the wire. -/
def protHeader (h : LongPacketHeader) (m : Mask) : LongPacketHeader := { h with headerByte := h.headerByte ^^^ (m.m0 &&& 0x0f), isProtected := true }

theorem protHeader_remove (h : LongPacketHeader) (m : Mask) (hp : h.isProtected = false) : (protHeader h m).removeProtection m = h := by
  unfold protHeader LongPacketHeader.removeProtection
  simp only [if_true, BitVec.xor_assoc, BitVec.xor_self, BitVec.xor_zero]
  cases h; simp_all
theorem protHeader_fields {h : LongPacketHeader} {m : Mask} {hb : Bytes} (hf : LongFields h (h.headerByte :: hb)) :
    LongFields (protHeader h m) ((protHeader h m).headerByte :: hb) := by
  obtain ⟨vb, d, s, e, r⟩ := hf
  refine ⟨vb, d, s, ?_, r⟩
  simp only [List.cons_append, List.cons.injEq, true_and] at e
  rw [e]
  simp [protHeader]
theorem longFields_toBytes {h : LongPacketHeader} (h0 : h.version.toNat ≠ 0) {bs : Bytes} (hf : LongFields h bs) : h.toBytes = .ok bs := by
  have hf' := hf
  obtain ⟨vb, d, s, _, _, _, l1, l2, hif⟩ := hf'
  rw [if_neg h0] at hif
  obtain ⟨hvn, h1, h2, v1, v2⟩ := hif
  have fd := beNat_lt d
  have fs := beNat_lt s
  obtain ⟨b', e, hf'⟩ := long_toBytes_fields h0 hvn (by omega) (by omega) (by rw [← v1, ← l1]; exact fd) (by rw [← v2, ← l2]; exact fs)
  rw [e, longFields_inj hf' hf]
theorem protHeader_reads {h : LongPacketHeader} {m : Mask} {hb : Bytes} (hf : LongFields h (h.headerByte :: hb))
    (hpr : protectable (packetKind h.headerByte h.version) = true) (hlong : packetKind h.headerByte h.version ≠ .oneRtt) :
    Reads (LongPacketHeader.fromStream (h.headerByte ^^^ (m.m0 &&& 0x0f))) hb (protHeader h m) := by
  have hk := kind_xor h.headerByte m.m0 h.version
  have h128 := kind_long (b := h.headerByte ^^^ (m.m0 &&& 0x0f)) (v := h.version) (by rw [hk]; exact hlong)
  have := long_reads (protHeader_fields (m := m) hf) h128 (by
    show true = protectable (packetKind (h.headerByte ^^^ (m.m0 &&& 0x0f)) h.version)
    rw [hk, hpr])
  exact this

theorem kind_version {b : U8} {v : U32} (h : packetKind b v ≠ .oneRtt) (h' : packetKind b v ≠ .versionNegotiation) : v.toNat ≠ 0 := by
  intro h0
  unfold packetKind at h h'
  split at h
  · exact h rfl
  · rename_i hb
    rw [if_neg hb, if_pos h0] at h'
    exact h' rfl

/-- An RFC Initial packet with a four-byte packet number is decoded. -/
theorem initial_reads {P : Prims} (hP : PrimLaws P) {bp : Profile} {c : Connection} {k : Keys}
    (hk : c.remoteSecrets .initial = .ok (secretsOf P k)) (hiv : k.iv.length = 12) {h : LongPacketHeader} (hp : h.isProtected = false)
    {token pnB payload out : Bytes} {pn : U64} {fs : List Frame} (hw : InitialWire P k h token pnB pn.toNat payload out) (h4 : pnB.length = 4)
    (hr : c.reconstructRemotePn bp .initial pnB = .ok pn) (hf : (deserializeFrames (makeResultStream payload)).1 = .ok fs) :
    Reads (PacketInitial.fromStream bp c) out
      { header := h, token, packetNumber := pn, packetNumberBytes := pnB, packetPayload := fs } := by
  obtain ⟨hb, tl, lb, w1, w2, w3, w4, w5, w6⟩ := hw
  obtain ⟨m, ct, tag, rfl, f1, f2, f3, f4, f5⟩ := protected_facts hP hiv w6
  have hv : h.version.toNat ≠ 0 := kind_version (by rw [w2]; decide) (by rw [w2]; decide)
  have hrem := protHeader_remove h m hp
  rw [initial_eq]
  refine Reads.bind' (u8_reads (h.headerByte ^^^ (m.m0 &&& 0x0f))) (b2 := hb ++ (tl ++ (token ++ (lb ++ (pnB.zipWith (· ^^^ ·) (maskList m) ++ (ct ++ tag)))))) ?_ (by simp)
  refine Reads.bind (protHeader_reads w1 (by rw [w2]; rfl) (by rw [w2]; decide)) ?_
  have ht := w4.lt
  have hl := w5.lt
  refine Reads.bind (varIntWithBytes_reads (v := BitVec.ofNat 64 token.length) (by rw [ofNat64_toNat (by omega)]; exact w4)) ?_
  refine Reads.bind (varBytes_reads' (by rw [ofNat64_toNat (by omega)])) ?_
  refine Reads.bind (varIntWithBytes_reads (v := BitVec.ofNat 64 (pnB.length + payload.length + 16)) (by rw [ofNat64_toNat (by omega)]; exact w5)) ?_
  refine Reads.bind' (tail_reads hk (first := h.headerByte) (hb := hb) (payload := payload) (fs := fs) (pn := pn) h4 f2 ?_ f4 ?_ ?_ ?_ hr hf)
    (b2 := []) ?_ (List.append_nil _).symm
  · rw [ofNat64_toNat (by omega), List.length_append]; omega
  · simpa using f5
  · show ((protHeader h m).removeProtection m).packetNumberLength = _
    rw [hrem]; exact pnLength_eq.mpr ⟨hp, by omega⟩
  · show ((protHeader h m).removeProtection m).toBytes = _
    rw [hrem]; exact longFields_toBytes hv w1
  · show Reads (Pure.pure _) _ _
    dsimp only
    rw [hrem]
    exact Reads.pure _
/-- The same for Handshake packets. -/
theorem handshake_reads {P : Prims} (hP : PrimLaws P) {bp : Profile} {c : Connection} {k : Keys}
    (hk : c.remoteSecrets .handshake = .ok (secretsOf P k)) (hiv : k.iv.length = 12) {h : LongPacketHeader} (hp : h.isProtected = false)
    {pnB payload out : Bytes} {pn : U64} {fs : List Frame} (hw : HandshakeWire P k h pnB pn.toNat payload out) (h4 : pnB.length = 4)
    (hr : c.reconstructRemotePn bp .handshake pnB = .ok pn) (hf : (deserializeFrames (makeResultStream payload)).1 = .ok fs) :
    Reads (PacketHandshake.fromStream bp c) out
      { header := h, packetNumber := pn, packetNumberBytes := pnB, packetPayload := fs } := by
  obtain ⟨hb, lb, w1, w2, w3, w5, w6⟩ := hw
  obtain ⟨m, ct, tag, rfl, f1, f2, f3, f4, f5⟩ := protected_facts hP hiv w6
  have hv : h.version.toNat ≠ 0 := kind_version (by rw [w2]; decide) (by rw [w2]; decide)
  have hrem := protHeader_remove h m hp
  rw [handshake_eq]
  refine Reads.bind' (u8_reads (h.headerByte ^^^ (m.m0 &&& 0x0f))) (b2 := hb ++ (lb ++ (pnB.zipWith (· ^^^ ·) (maskList m) ++ (ct ++ tag)))) ?_ (by simp)
  refine Reads.bind (protHeader_reads w1 (by rw [w2]; rfl) (by rw [w2]; decide)) ?_
  have hl := w5.lt
  refine Reads.bind (varIntWithBytes_reads (v := BitVec.ofNat 64 (pnB.length + payload.length + 16)) (by rw [ofNat64_toNat (by omega)]; exact w5)) ?_
  refine Reads.bind' (tail_reads hk (first := h.headerByte) (hb := hb) (payload := payload) (fs := fs) (pn := pn) h4 f2 ?_ f4 ?_ ?_ ?_ hr hf)
    (b2 := []) ?_ (List.append_nil _).symm
  · rw [ofNat64_toNat (by omega), List.length_append]; omega
  · simpa using f5
  · show ((protHeader h m).removeProtection m).packetNumberLength = _
    rw [hrem]; exact pnLength_eq.mpr ⟨hp, by omega⟩
  · show ((protHeader h m).removeProtection m).toBytes = _
    rw [hrem]; exact longFields_toBytes hv w1
  · show Reads (Pure.pure _) _ _
    dsimp only
    rw [hrem]
    exact Reads.pure _

end QuicSea
