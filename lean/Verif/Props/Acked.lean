import Verif.Props.Accepted
import Verif.Props.Build
/-
C127: decoding a packet whatever has been acknowledged: the packets that are accepted, and the inputs that panic, exactly.
-/
namespace Spec
open QuicSea

/-- The bytes taken for the packet number: all four from its place on in Handshake packets, in the others as many as the first byte says. -/
def numberPart (kind : PacketType) (four : Bytes) (len : Nat) : Bytes := if kind = .handshake then four else four.take len

/-- As `ShortLength`, with another way to get stuck: there is no number to read without overflow, in builds that check it. -/
def Stuck (P : Prims) (c : Connection) (bp : Profile) (kind : PacketType) (first : U8) (rest : Stream) : Prop :=
  ∃ sp k pre lb L pnP sample s m0 m1 m2 m3 m4 r, KindIn kind sp ∧ c.remoteSecrets sp = .ok (secretsOf P k) ∧
    rest = makeResultStream (pre ++ lb ++ pnP ++ sample) ++ s ∧
    BeforeLength kind pre ∧ IsVarInt lb L ∧ pnP.length = 4 ∧ sample.length = 16 ∧
    P.aesEcb k.hp sample = some (m0 :: m1 :: m2 :: m3 :: m4 :: r) ∧
    ((∀ n, n < 2 ^ 64 → ¬ NumberRead bp ((c.pnInfo sp).largestRemoteAck.map BitVec.toNat)
        (numberPart kind (pnP.zipWith (· ^^^ ·) [m1, m2, m3, m4]) ((first ^^^ (m0 &&& 0x0f)).toNat % 4 + 1)) n) ∨
      (first ^^^ (m0 &&& 0x0f)).toNat % 4 + 1 ≤ L ∧ L < (first ^^^ (m0 &&& 0x0f)).toNat % 4 + 1 + 16 ∨
      bp = .debug ∧ L < (first ^^^ (m0 &&& 0x0f)).toNat % 4 + 1)

/-- The same for 1-RTT packets, which have no Length. -/
def StuckShort (P : Prims) (c : Connection) (bp : Profile) (first : U8) (rest : Stream) : Prop :=
  ∃ k pnP sample s m0 m1 m2 m3 m4 r, c.remoteSecrets .application = .ok (secretsOf P k) ∧ rest = makeResultStream (pnP ++ sample) ++ s ∧
    pnP.length = 4 ∧ sample.length = 16 ∧ P.aesEcb k.hp sample = some (m0 :: m1 :: m2 :: m3 :: m4 :: r) ∧
    ∀ n, n < 2 ^ 64 → ¬ NumberRead bp ((c.pnInfo .application).largestRemoteAck.map BitVec.toNat)
      ((pnP.zipWith (· ^^^ ·) [m1, m2, m3, m4]).take ((first ^^^ (m0 &&& 0x1f)).toNat % 4 + 1)) n

end Spec

namespace QuicSea
open Spec

/-- **C127**: the Initial packets that are accepted, exactly, on any connection with Initial keys, whatever has been acknowledged. -/
theorem C127_initial (P : Prims) (bp : Profile) (c : Connection) (k : Keys) (hkl : KeyLens k) (hk : c.remoteSecrets .initial = .ok (secretsOf P k))
    (s s' : Stream) (p : PacketInitial) (hs : s.length + 4 < 2 ^ 64) :
    decodeNextPacket bp c s = (.ok (.initial p), s') ↔
    ∃ out hb tl lb plain skip L, s = makeResultStream out ++ s' ∧ LongFields p.header (p.header.headerByte :: hb) ∧ p.header.isProtected = false ∧
      packetKind p.header.headerByte p.header.version = .initial ∧ IsVarInt tl p.token.length ∧ IsVarInt lb L ∧
      out.length + p.packetNumberBytes.length = 1 + (hb ++ tl ++ p.token ++ lb).length + L + 4 ∧
      Opened P k 0x0f p.header.headerByte (hb ++ tl ++ p.token ++ lb) p.packetNumberBytes skip p.packetNumber.toNat plain out ∧
      NumberRead bp ((c.pnInfo .initial).largestRemoteAck.map BitVec.toNat) p.packetNumberBytes p.packetNumber.toNat ∧
      (deserializeFrames (makeResultStream plain)).1 = .ok p.packetPayload := by
  have hrec : ∀ {hb tl lb pl skip out}, Opened P k 0x0f p.header.headerByte (hb ++ tl ++ p.token ++ lb) p.packetNumberBytes skip p.packetNumber.toNat pl out →
      (c.reconstructRemotePn bp .initial p.packetNumberBytes = .ok p.packetNumber ↔
        NumberRead bp ((c.pnInfo .initial).largestRemoteAck.map BitVec.toNat) p.packetNumberBytes p.packetNumber.toNat) := by
    intro hb tl lb pl skip out ⟨nb, ct, tag, m0, m1, m2, m3, m4, r, pnM, _, _, _, i4, i5, i6, _⟩
    refine reconstruct_reads bp c .initial ?_ p.packetNumber
    rw [i6, List.length_zipWith]
    simp only [List.length_cons, List.length_nil]
    omega
  constructor
  · intro h
    obtain ⟨out, hb, tl, lb, pl, skip, L, g1, g2, g3, g4, g5, g6, g7, g8, g9, g10, g11⟩ := initial_opened hk hkl.2.1 h
    have hlen : out.length + s'.length = s.length := by rw [g1]; simp [makeResultStream]
    have hL : p.packetNumberBytes.length ≤ L := by
      by_cases hh : p.packetNumberBytes.length ≤ L
      · exact hh
      · have := g9 (by omega); omega
    exact ⟨out, hb, tl, lb, pl, skip, L, g1, g2, g3, g4, g5, g6, g8 hL, g7, (hrec g7).mp g10, g11⟩
  · rintro ⟨out, hb, tl, lb, pl, skip, L, rfl, g2, g3, g4, g5, g6, g8, g7, g10, g11⟩
    exact initial_accepted hk hkl.2.1 g2 g3 g4 g5 g6 g7 g8 ((hrec g7).mpr g10) g11 s'

theorem tail_panic_or {P : Prims} (hP : PrimLaws P) {bp : Profile} {c : Connection} {sp : PnSpace} {whole : Bool} {lenOf : Mask → Out Nat}
    {hdr : Mask → Out Bytes} {payload : Nat → Rd Bytes} {mid : Bytes} {k : Keys} (hk : c.remoteSecrets sp = .ok (secretsOf P k))
    (hkl : k.hp.length = 16) (hlen : ∀ m, ∃ n, lenOf m = .ok n ∧ n ≤ 4) (hhdr : ∀ m, (hdr m).isPanic = false)
    {s : Stream}
    (h : (tail bp c sp whole lenOf hdr payload mid s).1.isPanic = true) :
    ∃ pnP s1 n m smp s3, s = makeResultStream pnP ++ s1 ∧ pnP.length = 4 ∧ lenOf m = .ok n ∧
      s1 = makeResultStream smp ++ s3 ∧ smp.length = 16 ∧ hpMaskAes128Ecb P k.hp smp = .ok m ∧
      ((c.reconstructRemotePn bp sp (if whole then pnP.zipWith (· ^^^ ·) (maskList m) else (pnP.zipWith (· ^^^ ·) (maskList m)).take n)).isPanic = true ∨
        (payload n s1).1.isPanic = true ∨ ∃ data s2, payload n s1 = (.ok data, s2) ∧ data.length < 16) := by
  unfold tail at h
  obtain ⟨pnP, s1, h1, g1⟩ := Rd.bind_isPanic' h (varBytes_noPanic 4)
  obtain ⟨off, s2, h2, g2⟩ := Rd.bind_isPanic' g1 NoPanic.cloned
  obtain ⟨m, e3, g3⟩ := Rd.lift_bind_isPanic g2 (getRemoteHpMask_noPanic hP hk hkl _)
  obtain ⟨n, hn, hn4⟩ := hlen m
  obtain ⟨bs, b1, b2, b3⟩ := varBytes_sound _ _ _ _ h1
  subst b2
  obtain ⟨e2, e2'⟩ := Prod.mk.inj (h2 : (Out.ok s1, s1) = _)
  cases e2
  subst e2'
  obtain ⟨smp, s9, m1, m2, m3⟩ := getRemoteHpMask_inv hk e3
  obtain ⟨n', e4, g4⟩ := Rd.lift_bind_isPanic g3 (by rw [hn]; rfl)
  rw [hn] at e4
  cases e4
  have hx : xorPnProtection bs m = .ok (bs.zipWith (· ^^^ ·) (maskList m)) := xorPn_ok.mpr ⟨by omega, rfl⟩
  have hlx : (bs.zipWith (· ^^^ ·) (maskList m)).length = 4 := by simp [b3, maskList]
  obtain ⟨x, e5, g5⟩ := Rd.lift_bind_isPanic g4 (by rw [hx]; rfl)
  rw [hx] at e5
  cases e5
  have hy := sliceTo_ok.mpr ⟨(by omega : n ≤ (bs.zipWith (· ^^^ ·) (maskList m)).length), rfl⟩
  obtain ⟨y, e6, g6⟩ := Rd.lift_bind_isPanic g5 (by rw [hy]; rfl)
  rw [hy] at e6
  cases e6
  refine ⟨bs, s1, n, m, smp, s9, b1, b3, hn, m1, m2, m3, ?_⟩
  cases hrec : (c.reconstructRemotePn bp sp (if whole then bs.zipWith (· ^^^ ·) (maskList m) else (bs.zipWith (· ^^^ ·) (maskList m)).take n)).isPanic with
  | true => exact .inl rfl
  | false =>
  refine .inr ?_
  obtain ⟨pn, e7, g7⟩ := Rd.lift_bind_isPanic g6 hrec
  clear h g1 g2 g3 g4 g5 g6
  rcases Rd.bind_isPanic g7 with h | ⟨data, s2, e8, h⟩
  · exact .inl h
  · refine .inr ⟨data, s2, e8, ?_⟩
    unfold tailEnd at h
    obtain ⟨hb, e9, h⟩ := Rd.lift_bind_isPanic h (hhdr m)
    rcases Rd.bind_isPanic h with h | ⟨fd, s3, e10, h⟩
    · rw [Rd.lift_apply, decrypt_eq hk] at h
      exact internalDecrypt_panic.mp h
    · obtain ⟨fs, e11, h⟩ := Rd.lift_bind_isPanic h (frames_noPanic _)
      cases h

/-- No number can be read: a panic. -/
theorem tail_stops {P : Prims} {bp : Profile} {c : Connection} {sp : PnSpace} {whole : Bool} {lenOf : Mask → Out Nat} {hdr : Mask → Out Bytes}
    {payload : Nat → Rd Bytes} {mid : Bytes} {k : Keys} (hk : c.remoteSecrets sp = .ok (secretsOf P k))
    {pnP smp : Bytes} {s s1 : Stream} {m : Mask} {n : Nat}
    (hp : pnP.length = 4) (hs : s = makeResultStream smp ++ s1) (hl : smp.length = 16) (hm : hpMaskAes128Ecb P k.hp smp = .ok m)
    (hn : lenOf m = .ok n) (hn4 : n ≤ 4)
    (hr : (c.reconstructRemotePn bp sp (if whole then pnP.zipWith (· ^^^ ·) (maskList m) else (pnP.zipWith (· ^^^ ·) (maskList m)).take n)).isPanic = true) :
    (tail bp c sp whole lenOf hdr payload mid (makeResultStream pnP ++ s)).1.isPanic = true := by
  have hx : xorPnProtection pnP m = .ok (pnP.zipWith (· ^^^ ·) (maskList m)) := xorPn_ok.mpr ⟨by omega, rfl⟩
  have ht : sliceTo (pnP.zipWith (· ^^^ ·) (maskList m)) n = .ok ((pnP.zipWith (· ^^^ ·) (maskList m)).take n) :=
    sliceTo_ok.mpr ⟨by simp [hp, maskList]; omega, rfl⟩
  unfold tail
  rw [Rd.bind_ok (varBytes_reads' hp s), Rd.bind_ok (Rd.cloned_apply s)]
  rw [Rd.bind_ok (a := m) (s' := s) (by rw [Rd.lift_apply, hs, getRemoteHpMask_run hk hl, hm])]
  rw [Rd.bind_ok (a := n) (s' := s) (by rw [Rd.lift_apply, hn])]
  rw [Rd.bind_ok (s' := s) (by rw [Rd.lift_apply, hx]), Rd.bind_ok (s' := s) (by rw [Rd.lift_apply, ht])]
  rw [Rd.bind_apply, Rd.lift_apply]
  cases hc : c.reconstructRemotePn bp sp (if whole then pnP.zipWith (· ^^^ ·) (maskList m) else (pnP.zipWith (· ^^^ ·) (maskList m)).take n) with
  | ok a => rw [hc] at hr; cases hr
  | err a => rw [hc] at hr; cases hr
  | panic w => rfl

/-- When a tail whose ciphertext length comes from the Length field panics. -/
theorem tail_panic_any {P : Prims} (hP : PrimLaws P) {bp : Profile} {c : Connection} {sp : PnSpace} {whole : Bool} {lenOf : Mask → Out Nat}
    {hdr : Mask → Out Bytes} {L : U64} {mid : Bytes} {k : Keys} (hk : c.remoteSecrets sp = .ok (secretsOf P k))
    (hkl : k.hp.length = 16) {first : Mask → U8} (hlen : ∀ m, lenOf m = .ok ((first m).toNat % 4 + 1)) (hhdr : ∀ m, ∃ b, hdr m = .ok b)
    {s : Stream} :
    (tail bp c sp whole lenOf hdr (lenBytes bp L) mid s).1.isPanic = true ↔
    ∃ pnP smp s1 m, s = makeResultStream (pnP ++ smp) ++ s1 ∧ pnP.length = 4 ∧ smp.length = 16 ∧ hpMaskAes128Ecb P k.hp smp = .ok m ∧
      ((c.reconstructRemotePn bp sp (if whole then pnP.zipWith (· ^^^ ·) (maskList m) else (pnP.zipWith (· ^^^ ·) (maskList m)).take ((first m).toNat % 4 + 1))).isPanic = true ∨
        (first m).toNat % 4 + 1 ≤ L.toNat ∧ L.toNat < (first m).toNat % 4 + 1 + 16 ∨ bp = .debug ∧ L.toNat < (first m).toNat % 4 + 1) := by
  constructor
  · intro h
    obtain ⟨pnP, s1, n, m, smp, s3, e1, e2, e3, e4, e5, e6, e7⟩ := tail_panic_or hP hk hkl (fun m => ⟨_, hlen m, by omega⟩)
      (fun m => by obtain ⟨b, e⟩ := hhdr m; rw [e]; rfl) h
    rw [hlen m] at e3
    cases e3
    refine ⟨pnP, smp, s3, m, by rw [e1, e4, makeResultStream_append, List.append_assoc], e2, e5, e6, ?_⟩
    rcases e7 with e7 | e7
    · exact .inl e7
    refine .inr ?_
    unfold lenBytes at e7
    by_cases hL : (first m).toNat % 4 + 1 ≤ L.toNat
    · rw [subUsize_ok hL] at e7
      rcases e7 with e7 | ⟨data, s2, e7, e8⟩
      · obtain ⟨a, _, e7⟩ := Rd.lift_bind_isPanic e7 rfl
        rw [varBytes_noPanic a s1] at e7
        cases e7
      · rw [Rd.bind_ok (Rd.lift_apply _ _)] at e7
        obtain ⟨bs, _, _, l⟩ := varBytes_sound _ _ _ _ e7
        left; omega
    · cases bp with
      | debug => exact .inr ⟨rfl, by omega⟩
      | release =>
        exfalso
        have hs : subUsize .release L.toNat ((first m).toNat % 4 + 1) = .ok (2 ^ 64 + L.toNat - ((first m).toNat % 4 + 1)) := by
          unfold subUsize; rw [if_neg hL]
        rw [hs] at e7
        rcases e7 with e7 | ⟨data, s2, e7, e8⟩
        · obtain ⟨a, _, e7⟩ := Rd.lift_bind_isPanic e7 rfl
          rw [varBytes_noPanic a s1] at e7
          cases e7
        · rw [Rd.bind_ok (Rd.lift_apply _ _)] at e7
          obtain ⟨bs, _, _, l⟩ := varBytes_sound _ _ _ _ e7
          omega
  · rintro ⟨pnP, smp, s1, m, rfl, h1, h2, h3, h0⟩
    cases hrec : c.reconstructRemotePn bp sp (if whole then pnP.zipWith (· ^^^ ·) (maskList m) else (pnP.zipWith (· ^^^ ·) (maskList m)).take ((first m).toNat % 4 + 1)) with
    | err e =>
      have := reconstruct_noErr bp c sp (if whole then pnP.zipWith (· ^^^ ·) (maskList m) else (pnP.zipWith (· ^^^ ·) (maskList m)).take ((first m).toNat % 4 + 1))
      rw [hrec] at this
      cases this
    | panic w => rw [makeResultStream_append, List.append_assoc]; exact tail_stops hk h1 rfl h2 h3 (hlen m) (by omega) (by rw [hrec]; rfl)
    | ok pn =>
    have h4 := h0.resolve_left (by rw [hrec]; exact nofun)
    rw [makeResultStream_append, List.append_assoc, tail_eval hk h1 rfl h2 h3 (hlen m) (by omega) hrec]
    rw [Rd.bind_apply]
    unfold lenBytes
    rcases h4 with ⟨h4, h5⟩ | ⟨rfl, h4⟩
    · rw [subUsize_ok h4, Rd.bind_ok (Rd.lift_apply _ _)]
      have hsp : makeResultStream smp ++ s1 = makeResultStream (smp.take (L.toNat - ((first m).toNat % 4 + 1))) ++
          (makeResultStream (smp.drop (L.toNat - ((first m).toNat % 4 + 1))) ++ s1) := by
        rw [← List.append_assoc, ← makeResultStream_append, List.take_append_drop]
      rw [hsp, varBytes_reads' (by rw [List.length_take]; omega) _]
      dsimp only
      obtain ⟨b, hb⟩ := hhdr m
      unfold tailEnd
      rw [Rd.bind_ok (a := b) (by rw [Rd.lift_apply, hb])]
      rw [Rd.bind_apply, Rd.lift_apply, decrypt_eq hk]
      have : (internalDecryptAes128Gcm P k.key (packetNonce k.iv pn)
          (b ++ mid ++ (pnP.zipWith (· ^^^ ·) (maskList m)).take ((first m).toNat % 4 + 1)) (smp.take (L.toNat - ((first m).toNat % 4 + 1)))).isPanic = true :=
        internalDecrypt_panic.mpr (by rw [List.length_take]; omega)
      cases hd : (internalDecryptAes128Gcm P k.key (packetNonce k.iv pn)
          (b ++ mid ++ (pnP.zipWith (· ^^^ ·) (maskList m)).take ((first m).toNat % 4 + 1)) (smp.take (L.toNat - ((first m).toNat % 4 + 1)))) with
      | ok a => rw [hd] at this; cases this
      | err a => rw [hd] at this; cases this
      | panic a => rfl
    · have hs : subUsize .debug L.toNat ((first m).toNat % 4 + 1) = .panic "attempt to subtract with overflow" := by
        unfold subUsize; rw [if_neg (by omega)]
      rw [hs]
      rfl

/-- When decoding an Initial packet panics. -/
theorem initial_panic_any {P : Prims} (hP : PrimLaws P) {bp : Profile} {c : Connection} {k : Keys}
    (hk : c.remoteSecrets .initial = .ok (secretsOf P k)) (hkl : k.hp.length = 16)
    {s s1 : Stream} {x : LongPacketHeader} (hx : nextHeaderFromStream s = (.ok (.long x), s1))
    (hkind : packetKind x.headerByte x.version = .initial) :
    (PacketInitial.fromStream bp c s).1.isPanic = true ↔
    ∃ tl tok lb L pnP smp s2 m, s1 = makeResultStream (tl ++ tok ++ lb ++ pnP ++ smp) ++ s2 ∧ IsVarInt tl tok.length ∧ IsVarInt lb L ∧
      pnP.length = 4 ∧ smp.length = 16 ∧ hpMaskAes128Ecb P k.hp smp = .ok m ∧
      ((c.reconstructRemotePn bp .initial ((pnP.zipWith (· ^^^ ·) (maskList m)).take ((x.headerByte ^^^ (m.m0 &&& 0x0f)).toNat % 4 + 1))).isPanic = true ∨
        (x.headerByte ^^^ (m.m0 &&& 0x0f)).toNat % 4 + 1 ≤ L ∧ L < (x.headerByte ^^^ (m.m0 &&& 0x0f)).toNat % 4 + 1 + 16 ∨
        bp = .debug ∧ L < (x.headerByte ^^^ (m.m0 &&& 0x0f)).toNat % 4 + 1) := by
  obtain ⟨hb, e0, hf, h128, hp, r1, r2⟩ := long_prefix hx
  have hv : x.version.toNat ≠ 0 := kind_version (by rw [hkind]; decide) (by rw [hkind]; decide)
  rw [hkind] at hp
  have hrem := removeProtection_long (x := x) hp
  have hlen : ∀ m, (x.removeProtection m).packetNumberLength = .ok ((x.headerByte ^^^ (m.m0 &&& 0x0f)).toNat % 4 + 1) := by
    intro m; rw [hrem]; exact pnLength_eq.mpr ⟨rfl, rfl⟩
  have hhdr : ∀ m, ∃ b, (x.removeProtection m).toBytes = .ok b := by
    intro m; rw [hrem]
    exact ⟨_, longFields_toBytes (h := { x with headerByte := x.headerByte ^^^ (m.m0 &&& 0x0f), isProtected := false }) hv (unprot_fields hf)⟩
  rw [initial_eq, Rd.bind_ok r1, Rd.bind_ok r2]
  constructor
  · intro h
    obtain ⟨⟨t, tl⟩, s2, g1, h1⟩ := Rd.bind_isPanic' h varIntWithBytes_noPanic
    obtain ⟨tok, s3, g2, h2⟩ := Rd.bind_isPanic' h1 (varBytes_noPanic _)
    obtain ⟨⟨l, lb⟩, s4, g3, h3⟩ := Rd.bind_isPanic' h2 varIntWithBytes_noPanic
    clear h h1 h2
    obtain ⟨b1, a1, a2, a3⟩ := varIntWithBytes_sound _ _ _ g1
    obtain ⟨b2, c1, c2, c3⟩ := varBytes_sound _ _ _ _ g2
    obtain ⟨b3, d1, d2, d3⟩ := varIntWithBytes_sound _ _ _ g3
    dsimp only at a2 a3 d2 d3 c3 h3
    subst c2
    subst tl lb
    rcases Rd.bind_isPanic h3 with h3 | ⟨_, _, _, h3⟩
    · obtain ⟨pnP, smp, s5, m, f1, f2, f3, f4, f5⟩ :=
        (tail_panic_any hP hk hkl (first := fun m => x.headerByte ^^^ (m.m0 &&& 0x0f)) hlen hhdr).mp h3
      exact ⟨b1, b2, b3, l.toNat, pnP, smp, s5, m, by rw [a1, c1, d1, f1]; simp, by rw [c3]; exact a3, d3, f2, f3, f4, f5⟩
    · cases h3
  · rintro ⟨tl, tok, lb, L, pnP, smp, s2, m, rfl, ht, hl, f2, f3, f4, f5⟩
    have hl64 : (BitVec.ofNat 64 L).toNat = L := ofNat64_toNat (by have := hl.lt; omega)
    have ht64 : (BitVec.ofNat 64 tok.length).toNat = tok.length := ofNat64_toNat (by have := ht.lt; omega)
    simp only [makeResultStream_append, List.append_assoc]
    rw [Rd.bind_ok (varIntWithBytes_reads (v := BitVec.ofNat 64 tok.length) (by rw [ht64]; exact ht) _)]
    rw [Rd.bind_ok (varBytes_reads' (by rw [ht64]) _)]
    rw [Rd.bind_ok (varIntWithBytes_reads (v := BitVec.ofNat 64 L) (by rw [hl64]; exact hl) _)]
    have h3 := (tail_panic_any (bp := bp) (whole := false) (mid := tl ++ tok ++ lb) (L := BitVec.ofNat 64 L) (s := makeResultStream (pnP ++ smp) ++ s2) hP hk hkl
      (first := fun m => x.headerByte ^^^ (m.m0 &&& 0x0f)) hlen hhdr).mpr ⟨pnP, smp, s2, m, rfl, f2, f3, f4, by rw [hl64]; exact f5⟩
    rw [show makeResultStream (pnP ++ smp) ++ s2 = makeResultStream pnP ++ (makeResultStream smp ++ s2) by simp] at h3
    rw [← List.append_assoc tl, Rd.bind_apply]
    cases ht : tail bp c .initial false (fun m => (x.removeProtection m).packetNumberLength) (fun m => (x.removeProtection m).toBytes)
        (lenBytes bp (BitVec.ofNat 64 L)) (tl ++ tok ++ lb) (makeResultStream pnP ++ (makeResultStream smp ++ s2)) with
    | mk o s3 =>
      rw [ht] at h3
      cases o with
      | ok a => cases h3
      | err a => cases h3
      | panic a => rfl

/-- When decoding a Handshake packet panics. -/
theorem handshake_panic_any {P : Prims} (hP : PrimLaws P) {bp : Profile} {c : Connection} {k : Keys}
    (hk : c.remoteSecrets .handshake = .ok (secretsOf P k)) (hkl : k.hp.length = 16)
    {s s1 : Stream} {x : LongPacketHeader} (hx : nextHeaderFromStream s = (.ok (.long x), s1))
    (hkind : packetKind x.headerByte x.version = .handshake) :
    (PacketHandshake.fromStream bp c s).1.isPanic = true ↔
    ∃ lb L pnP smp s2 m, s1 = makeResultStream (lb ++ pnP ++ smp) ++ s2 ∧ IsVarInt lb L ∧
      pnP.length = 4 ∧ smp.length = 16 ∧ hpMaskAes128Ecb P k.hp smp = .ok m ∧
      ((c.reconstructRemotePn bp .handshake (pnP.zipWith (· ^^^ ·) (maskList m))).isPanic = true ∨
        (x.headerByte ^^^ (m.m0 &&& 0x0f)).toNat % 4 + 1 ≤ L ∧ L < (x.headerByte ^^^ (m.m0 &&& 0x0f)).toNat % 4 + 1 + 16 ∨
        bp = .debug ∧ L < (x.headerByte ^^^ (m.m0 &&& 0x0f)).toNat % 4 + 1) := by
  obtain ⟨hb, e, hf, h128, hp, r1, r2⟩ := long_prefix hx
  have hv : x.version.toNat ≠ 0 := kind_version (by rw [hkind]; decide) (by rw [hkind]; decide)
  rw [hkind] at hp
  have hrem := removeProtection_long (x := x) hp
  have hlen : ∀ m, (x.removeProtection m).packetNumberLength = .ok ((x.headerByte ^^^ (m.m0 &&& 0x0f)).toNat % 4 + 1) := by
    intro m; rw [hrem]; exact pnLength_eq.mpr ⟨rfl, rfl⟩
  have hhdr : ∀ m, ∃ b, (x.removeProtection m).toBytes = .ok b := by
    intro m; rw [hrem]
    exact ⟨_, longFields_toBytes (h := { x with headerByte := x.headerByte ^^^ (m.m0 &&& 0x0f), isProtected := false }) hv (unprot_fields hf)⟩
  rw [handshake_eq, Rd.bind_ok r1, Rd.bind_ok r2]
  constructor
  · intro h
    obtain ⟨⟨l, lb⟩, s4, g3, h3⟩ := Rd.bind_isPanic' h varIntWithBytes_noPanic
    clear h
    obtain ⟨b3, d1, d2, d3⟩ := varIntWithBytes_sound _ _ _ g3
    dsimp only at d2 d3 h3
    subst lb
    rcases Rd.bind_isPanic h3 with h3 | ⟨_, _, _, h3⟩
    · obtain ⟨pnP, smp, s5, m, f1, f2, f3, f4, f5⟩ := (tail_panic_any hP hk hkl (first := fun m => x.headerByte ^^^ (m.m0 &&& 0x0f)) hlen hhdr).mp h3
      exact ⟨b3, l.toNat, pnP, smp, s5, m, by rw [d1, f1]; simp, d3, f2, f3, f4, f5⟩
    · cases h3
  · rintro ⟨lb, L, pnP, smp, s2, m, rfl, hl, f2, f3, f4, f5⟩
    have hl64 : (BitVec.ofNat 64 L).toNat = L := ofNat64_toNat (by have := hl.lt; omega)
    have h3 := (tail_panic_any (bp := bp) (whole := true) (mid := lb) (L := BitVec.ofNat 64 L) (s := makeResultStream (pnP ++ smp) ++ s2) hP hk hkl
      (first := fun m => x.headerByte ^^^ (m.m0 &&& 0x0f)) hlen hhdr).mpr ⟨pnP, smp, s2, m, rfl, f2, f3, f4, by rw [hl64]; exact f5⟩
    rw [show makeResultStream (lb ++ pnP ++ smp) ++ s2 = makeResultStream lb ++ (makeResultStream (pnP ++ smp) ++ s2) by simp]
    rw [Rd.bind_ok (varIntWithBytes_reads (v := BitVec.ofNat 64 L) (by rw [hl64]; exact hl) _)]
    rw [Rd.bind_apply]
    generalize tail bp c .handshake true _ _ _ _ _ = y at h3
    obtain ⟨o, s3⟩ := y
    cases o with
    | ok a => cases h3
    | err a => cases h3
    | panic a => rfl

/-- When decoding a 0-RTT packet panics. -/
theorem zeroRtt_panic_any {P : Prims} (hP : PrimLaws P) {bp : Profile} {c : Connection} {k : Keys}
    (hk : c.remoteSecrets .application = .ok (secretsOf P k)) (hkl : k.hp.length = 16)
    {s s1 : Stream} {x : LongPacketHeader} (hx : nextHeaderFromStream s = (.ok (.long x), s1))
    (hkind : packetKind x.headerByte x.version = .zeroRtt) :
    (PacketZeroRtt.fromStream bp c s).1.isPanic = true ↔
    ∃ lb L pnP smp s2 m, s1 = makeResultStream (lb ++ pnP ++ smp) ++ s2 ∧ IsVarInt lb L ∧
      pnP.length = 4 ∧ smp.length = 16 ∧ hpMaskAes128Ecb P k.hp smp = .ok m ∧
      ((c.reconstructRemotePn bp .application ((pnP.zipWith (· ^^^ ·) (maskList m)).take ((x.headerByte ^^^ (m.m0 &&& 0x0f)).toNat % 4 + 1))).isPanic = true ∨
        (x.headerByte ^^^ (m.m0 &&& 0x0f)).toNat % 4 + 1 ≤ L ∧ L < (x.headerByte ^^^ (m.m0 &&& 0x0f)).toNat % 4 + 1 + 16 ∨
        bp = .debug ∧ L < (x.headerByte ^^^ (m.m0 &&& 0x0f)).toNat % 4 + 1) := by
  obtain ⟨hb, e, hf, h128, hp, r1, r2⟩ := long_prefix hx
  have hv : x.version.toNat ≠ 0 := kind_version (by rw [hkind]; decide) (by rw [hkind]; decide)
  rw [hkind] at hp
  have hrem := removeProtection_long (x := x) hp
  have hlen : ∀ m, (x.removeProtection m).packetNumberLength = .ok ((x.headerByte ^^^ (m.m0 &&& 0x0f)).toNat % 4 + 1) := by
    intro m; rw [hrem]; exact pnLength_eq.mpr ⟨rfl, rfl⟩
  have hhdr : ∀ m, ∃ b, (x.removeProtection m).toBytes = .ok b := by
    intro m; rw [hrem]
    exact ⟨_, longFields_toBytes (h := { x with headerByte := x.headerByte ^^^ (m.m0 &&& 0x0f), isProtected := false }) hv (unprot_fields hf)⟩
  rw [zeroRtt_eq, Rd.bind_ok r1, Rd.bind_ok r2]
  constructor
  · intro h
    obtain ⟨⟨l, lb⟩, s4, g3, h3⟩ := Rd.bind_isPanic' h varIntWithBytes_noPanic
    clear h
    obtain ⟨b3, d1, d2, d3⟩ := varIntWithBytes_sound _ _ _ g3
    dsimp only at d2 d3 h3
    subst lb
    rcases Rd.bind_isPanic h3 with h3 | ⟨_, _, _, h3⟩
    · obtain ⟨pnP, smp, s5, m, f1, f2, f3, f4, f5⟩ := (tail_panic_any hP hk hkl (first := fun m => x.headerByte ^^^ (m.m0 &&& 0x0f)) hlen hhdr).mp h3
      exact ⟨b3, l.toNat, pnP, smp, s5, m, by rw [d1, f1]; simp, d3, f2, f3, f4, f5⟩
    · cases h3
  · rintro ⟨lb, L, pnP, smp, s2, m, rfl, hl, f2, f3, f4, f5⟩
    have hl64 : (BitVec.ofNat 64 L).toNat = L := ofNat64_toNat (by have := hl.lt; omega)
    have h3 := (tail_panic_any (bp := bp) (whole := false) (mid := lb) (L := BitVec.ofNat 64 L) (s := makeResultStream (pnP ++ smp) ++ s2) hP hk hkl
      (first := fun m => x.headerByte ^^^ (m.m0 &&& 0x0f)) hlen hhdr).mpr ⟨pnP, smp, s2, m, rfl, f2, f3, f4, by rw [hl64]; exact f5⟩
    rw [show makeResultStream (lb ++ pnP ++ smp) ++ s2 = makeResultStream lb ++ (makeResultStream (pnP ++ smp) ++ s2) by simp]
    rw [Rd.bind_ok (varIntWithBytes_reads (v := BitVec.ofNat 64 L) (by rw [hl64]; exact hl) _)]
    rw [Rd.bind_apply]
    generalize tail bp c .application false _ _ _ _ _ = y at h3
    obtain ⟨o, s3⟩ := y
    cases o with
    | ok a => cases h3
    | err a => cases h3
    | panic a => rfl

/-- When decoding a 1-RTT packet panics: only if no number can be read. -/
theorem oneRtt_panic_any {P : Prims} (hP : PrimLaws P) {bp : Profile} {c : Connection} {k : Keys}
    (hk : c.remoteSecrets .application = .ok (secretsOf P k)) (hkl : k.hp.length = 16)
    {s s1 : Stream} {x : ShortPacketHeader} (hx : nextHeaderFromStream s = (.ok (.short x), s1)) :
    (PacketOneRtt.fromStream bp c s).1.isPanic = true ↔
    ∃ pnP smp s2 m, s1 = makeResultStream (pnP ++ smp) ++ s2 ∧ pnP.length = 4 ∧ smp.length = 16 ∧ hpMaskAes128Ecb P k.hp smp = .ok m ∧
      (c.reconstructRemotePn bp .application ((pnP.zipWith (· ^^^ ·) (maskList m)).take ((x.headerByte ^^^ (m.m0 &&& 0x1f)).toNat % 4 + 1))).isPanic = true := by
  obtain ⟨bs0, e0, hf, h128, hp⟩ := nextHeader_short_iff.mp hx
  have hf' := hf
  obtain ⟨hb, rfl, l8, v8⟩ := hf'
  simp only [List.singleton_append] at e0 hf
  have r1 : u8FromDatagram s = (.ok x.headerByte, makeResultStream hb ++ s1) := by rw [e0]; rfl
  have hrem : ∀ m, x.removeProtection m = { x with headerByte := x.headerByte ^^^ (m.m0 &&& 0x1f), isProtected := false } := by
    intro m
    unfold ShortPacketHeader.removeProtection
    rw [hp]; rfl
  have hlen : ∀ m, (x.removeProtection m).packetNumberLength = .ok ((x.headerByte ^^^ (m.m0 &&& 0x1f)).toNat % 4 + 1) := by
    intro m; rw [hrem]; exact short_pnLength rfl
  rw [oneRtt_eq, Rd.bind_ok r1, Rd.bind_ok (short_reads hf hp s1)]
  constructor
  · intro h
    rcases Rd.bind_isPanic h with h | ⟨_, _, _, h⟩
    · obtain ⟨pnP, s3, n, m, smp, s4, e1, e2, e3, e4, e5, e6, e7⟩ := tail_panic_or hP hk hkl (fun m => ⟨_, hlen m, by omega⟩)
        (fun m => by
          unfold ShortPacketHeader.toBytes
          obtain ⟨b, e, _⟩ := toVarBytes_spec (x.removeProtection m).destinationConnectionId 8 (by decide)
          rw [e]; rfl) h
      rw [hlen m] at e3
      cases e3
      rcases e7 with e7 | e7 | ⟨data, s5, e7, e8⟩
      · exact ⟨pnP, smp, s4, m, by rw [e1, e4, makeResultStream_append, List.append_assoc], e2, e5, e6, e7⟩
      · rw [allBytes_noPanic s3] at e7; cases e7
      · obtain ⟨e9, _⟩ := allBytes_ok e7
        have := congrArg List.length (e4.symm.trans e9)
        simp [makeResultStream] at this
        omega
    · cases h
  · rintro ⟨pnP, smp, s2, m, rfl, h1, h2, h3, h4⟩
    have h5 : (tail bp c .application false (fun m => (x.removeProtection m).packetNumberLength) (fun m => (x.removeProtection m).toBytes) (fun _ => allBytesFromStream) []
        (makeResultStream pnP ++ (makeResultStream smp ++ s2))).1.isPanic = true :=
      tail_stops (whole := false) hk h1 rfl h2 h3 (hlen m) (by omega) h4
    rw [makeResultStream_append, List.append_assoc, Rd.bind_apply]
    generalize tail bp c .application false _ _ _ _ _ = y at h5
    obtain ⟨o, s3⟩ := y
    cases o with
    | ok a => cases h5
    | err a => cases h5
    | panic a => rfl

theorem stuck_number {bp : Profile} {c : Connection} {sp : PnSpace} {b : Bytes} (h : b.length ≤ 4) : (c.reconstructRemotePn bp sp b).isPanic = true ↔
    ∀ n, n < 2 ^ 64 → ¬ NumberRead bp ((c.pnInfo sp).largestRemoteAck.map BitVec.toNat) b n := by
  rw [reconstruct_panics]
  exact ⟨fun h' => h'.resolve_left (by omega), .inr⟩
theorem part_le {pnP : Bytes} {n : Nat} (h : pnP.length = 4) (m : Mask) : (pnP.zipWith (· ^^^ ·) (maskList m)).length ≤ 4 ∧
    ((pnP.zipWith (· ^^^ ·) (maskList m)).take n).length ≤ 4 := by
  have : (pnP.zipWith (· ^^^ ·) (maskList m)).length = 4 := by simp [h, maskList]
  exact ⟨by omega, by rw [List.length_take]; omega⟩

/-- **C127**: exactly when decoding one packet panics, on every connection, whatever keys it holds and whatever has been acknowledged. -/
theorem C127_panics (P : Prims) (hP : PrimLaws P) (bp : Profile) (c : Connection)
    (hks : ∀ sp, (∃ k, KeyLens k ∧ c.remoteSecrets sp = .ok (secretsOf P k)) ∨ ∃ e, c.remoteSecrets sp = .err e)
    (s : Stream) :
    (decodeNextPacket bp c s).1.isPanic = true ↔
      ((∀ h rest, ¬ LongAt s h rest) ∧ (∀ h rest, ¬ ShortAt s h rest)) ∨
      (∃ h rest, LongAt s h rest ∧ packetKind h.headerByte h.version = .retry) ∨
      (∃ h rest, LongAt s h rest ∧ Stuck P c bp (packetKind h.headerByte h.version) h.headerByte rest) ∨
      (∃ h rest, ShortAt s h rest ∧ StuckShort P c bp h.headerByte rest) := by
  cases hx : nextHeaderFromStream s with
  | mk o s1 =>
    cases o with
    | err e =>
      refine ⟨fun _ => Or.inl ⟨?_, ?_⟩, fun _ => decodeNext_err hx⟩
      · intro h rest hl; rw [longAt_next hl] at hx; cases hx
      · intro h rest hl; rw [shortAt_next hl] at hx; cases hx
    | panic w =>
      have := nextHeader_noPanic s
      rw [hx] at this
      cases this
    | ok x =>
      cases x with
      | short x =>
        have hsame : ∀ h rest, ShortAt s h rest → h.headerByte = x.headerByte ∧ rest = s1 := by
          intro h rest hl'
          rw [shortAt_next hl'] at hx
          cases hx
          exact ⟨rfl, rfl⟩
        suffices hs : (decodeNextPacket bp c s).1.isPanic = true ↔ StuckShort P c bp x.headerByte s1 by
          rw [hs]
          constructor
          · intro h
            exact .inr (.inr (.inr ⟨x, s1, next_shortAt hx, h⟩))
          · rintro (⟨_, h2⟩ | ⟨h, rest, hl, _⟩ | ⟨h, rest, hl, _⟩ | ⟨h, rest, hl, e⟩)
            · exact absurd (next_shortAt hx) (h2 x s1)
            · rw [longAt_next hl] at hx; cases hx
            · rw [longAt_next hl] at hx; cases hx
            · obtain ⟨e1, e2⟩ := hsame h rest hl; rw [e1, e2] at e; exact e
        rw [decodeNext_short hx]
        rcases hks .application with ⟨k, hkl, hk⟩ | ⟨e, he⟩
        · rw [mapped_isPanic, oneRtt_panic_any hP hk hkl.1 hx]
          constructor
          · rintro ⟨pnP, smp, s2, m, a1, a4, a5, a6, a7⟩
            obtain ⟨r, a6⟩ := hpMask_ok.mp a6
            exact ⟨k, pnP, smp, s2, _, _, _, _, _, r, hk, a1, a4, a5, a6, (stuck_number (part_le a4 m).2).mp a7⟩
          · rintro ⟨k', pnP, smp, s2, m0, m1, m2, m3, m4, r, hk', a1, a4, a5, a6, a7⟩
            have e : secretsOf P k = secretsOf P k' := Out.ok.inj (hk.symm.trans hk')
            have e : k.hp = k'.hp := congrArg Secrets.hp e
            exact ⟨pnP, smp, s2, ⟨m0, m1, m2, m3, m4⟩, a1, a4, a5, hpMask_ok.mpr ⟨r, by rw [e]; exact a6⟩, (stuck_number (part_le a4 ⟨m0, m1, m2, m3, m4⟩).2).mpr a7⟩
        · rw [out_errNo (Rd.bind_isErr' (oneRtt_noKeys he s))]
          constructor
          · intro h; cases h
          · rintro ⟨k', _, _, _, _, _, _, _, _, _, hk', _⟩
            rw [he] at hk'; cases hk'
      | long x =>
        have hl := next_longAt hx
        have same : ∀ h rest, LongAt s h rest → h.headerByte = x.headerByte ∧ h.version = x.version ∧ rest = s1 := by
          intro h rest hl'
          rw [longAt_next hl'] at hx
          cases hx
          exact ⟨rfl, rfl, rfl⟩
        -- it is enough to look at the header `x`
        suffices hs : (decodeNextPacket bp c s).1.isPanic = true ↔ packetKind x.headerByte x.version = .retry ∨
            Stuck P c bp (packetKind x.headerByte x.version) x.headerByte s1 by
          rw [hs]
          constructor
          · rintro (h | h)
            · exact .inr (.inl ⟨x, s1, hl, h⟩)
            · exact .inr (.inr (.inl ⟨x, s1, hl, h⟩))
          · rintro (⟨h2, _⟩ | ⟨h, rest, hl', e⟩ | ⟨h, rest, hl', e⟩ | ⟨h, rest, hl', e⟩)
            · exact absurd hl (h2 x s1)
            · obtain ⟨e1, e2, _⟩ := same h rest hl'; rw [e1, e2] at e; exact .inl e
            · obtain ⟨e1, e2, e3⟩ := same h rest hl'; rw [e1, e2, e3] at e; exact .inr e
            · rw [shortAt_next hl'] at hx; cases hx
        rw [decodeNext_long hx]
        cases hkind : packetKind x.headerByte x.version with
        | initial =>
          rw [show (longReader bp c .initial s).1.isPanic = (PacketInitial.fromStream bp c s).1.isPanic from mapped_isPanic (PacketInitial.fromStream bp c) Packet.initial s]
          rcases hks .initial with ⟨k, hkl, hk⟩ | ⟨e, he⟩
          · rw [initial_panic_any (bp := bp) hP hk hkl.1 hx hkind]
            constructor
            · rintro ⟨tl, tok, lb, L, pnP, smp, s2, m, a1, a2, a3, a4, a5, a6, a7⟩
              obtain ⟨r, a6⟩ := hpMask_ok.mp a6
              exact .inr ⟨.initial, k, tl ++ tok, lb, L, pnP, smp, s2, _, _, _, _, _, r, .inl ⟨rfl, rfl⟩, hk, a1, ⟨tl, tok, rfl, a2⟩, a3, a4, a5, a6, (or_congr_left (stuck_number (part_le a4 _).2)).mp a7⟩
            · rintro (h | ⟨sp, k', pre, lb, L, pnP, smp, s2, m0, m1, m2, m3, m4, r, ⟨_, rfl⟩ | ⟨h, _⟩ | ⟨h, _⟩, hk', a1, ⟨tl, tok, rfl, a2⟩, a3, a4, a5, a6, a7⟩)
              · cases h
              · have e : secretsOf P k = secretsOf P k' := Out.ok.inj (hk.symm.trans hk')
                have e : k.hp = k'.hp := congrArg Secrets.hp e
                exact ⟨tl, tok, lb, L, pnP, smp, s2, ⟨m0, m1, m2, m3, m4⟩, a1, a2, a3, a4, a5, hpMask_ok.mpr ⟨r, by rw [e]; exact a6⟩, (or_congr_left (stuck_number (part_le a4 ⟨m0, m1, m2, m3, m4⟩).2)).mpr a7⟩
              · cases h
              · cases h
          · rw [out_errNo (initial_noKeys he s)]
            constructor
            · intro h; cases h
            · rintro (h | ⟨sp, k', pre, lb, L, pnP, smp, s2, m0, m1, m2, m3, m4, r, ⟨_, rfl⟩ | ⟨h, _⟩ | ⟨h, _⟩, hk', _⟩)
              · cases h
              · rw [he] at hk'; cases hk'
              · cases h
              · cases h
        | handshake =>
          rw [show (longReader bp c .handshake s).1.isPanic = (PacketHandshake.fromStream bp c s).1.isPanic from mapped_isPanic (PacketHandshake.fromStream bp c) Packet.handshake s]
          rcases hks .handshake with ⟨k, hkl, hk⟩ | ⟨e, he⟩
          · rw [handshake_panic_any (bp := bp) hP hk hkl.1 hx hkind]
            constructor
            · rintro ⟨lb, L, pnP, smp, s2, m, a1, a3, a4, a5, a6, a7⟩
              obtain ⟨r, a6⟩ := hpMask_ok.mp a6
              exact .inr ⟨.handshake, k, [], lb, L, pnP, smp, s2, _, _, _, _, _, r, .inr (.inl ⟨rfl, rfl⟩), hk, a1, rfl, a3, a4, a5, a6, (or_congr_left (stuck_number (part_le (n := 0) a4 _).1)).mp a7⟩
            · rintro (h | ⟨sp, k', pre, lb, L, pnP, smp, s2, m0, m1, m2, m3, m4, r, ⟨h, _⟩ | ⟨_, rfl⟩ | ⟨h, _⟩, hk', a1, a2, a3, a4, a5, a6, a7⟩)
              · cases h
              · cases h
              · have e : secretsOf P k = secretsOf P k' := Out.ok.inj (hk.symm.trans hk')
                have e : k.hp = k'.hp := congrArg Secrets.hp e
                rw [show pre = [] from a2] at a1
                exact ⟨lb, L, pnP, smp, s2, ⟨m0, m1, m2, m3, m4⟩, a1, a3, a4, a5, hpMask_ok.mpr ⟨r, by rw [e]; exact a6⟩, (or_congr_left (stuck_number (part_le (n := 0) a4 ⟨m0, m1, m2, m3, m4⟩).1)).mpr a7⟩
              · cases h
          · rw [out_errNo (handshake_noKeys he s)]
            constructor
            · intro h; cases h
            · rintro (h | ⟨sp, k', pre, lb, L, pnP, smp, s2, m0, m1, m2, m3, m4, r, ⟨h, _⟩ | ⟨_, rfl⟩ | ⟨h, _⟩, hk', _⟩)
              · cases h
              · cases h
              · rw [he] at hk'; cases hk'
              · cases h
        | zeroRtt =>
          rw [show (longReader bp c .zeroRtt s).1.isPanic = (PacketZeroRtt.fromStream bp c s).1.isPanic from mapped_isPanic (PacketZeroRtt.fromStream bp c) Packet.zeroRtt s]
          rcases hks .application with ⟨k, hkl, hk⟩ | ⟨e, he⟩
          · rw [zeroRtt_panic_any (bp := bp) hP hk hkl.1 hx hkind]
            constructor
            · rintro ⟨lb, L, pnP, smp, s2, m, a1, a3, a4, a5, a6, a7⟩
              obtain ⟨r, a6⟩ := hpMask_ok.mp a6
              exact .inr ⟨.application, k, [], lb, L, pnP, smp, s2, _, _, _, _, _, r, .inr (.inr ⟨rfl, rfl⟩), hk, a1, rfl, a3, a4, a5, a6, (or_congr_left (stuck_number (part_le a4 _).2)).mp a7⟩
            · rintro (h | ⟨sp, k', pre, lb, L, pnP, smp, s2, m0, m1, m2, m3, m4, r, ⟨h, _⟩ | ⟨h, _⟩ | ⟨_, rfl⟩, hk', a1, a2, a3, a4, a5, a6, a7⟩)
              · cases h
              · cases h
              · cases h
              · have e : secretsOf P k = secretsOf P k' := Out.ok.inj (hk.symm.trans hk')
                have e : k.hp = k'.hp := congrArg Secrets.hp e
                rw [show pre = [] from a2] at a1
                exact ⟨lb, L, pnP, smp, s2, ⟨m0, m1, m2, m3, m4⟩, a1, a3, a4, a5, hpMask_ok.mpr ⟨r, by rw [e]; exact a6⟩, (or_congr_left (stuck_number (part_le a4 ⟨m0, m1, m2, m3, m4⟩).2)).mpr a7⟩
          · rw [out_errNo (zeroRtt_noKeys he s)]
            constructor
            · intro h; cases h
            · rintro (h | ⟨sp, k', pre, lb, L, pnP, smp, s2, m0, m1, m2, m3, m4, r, ⟨h, _⟩ | ⟨h, _⟩ | ⟨_, rfl⟩, hk', _⟩)
              · cases h
              · cases h
              · cases h
              · rw [he] at hk'; cases hk'
        | retry => exact ⟨fun _ => .inl rfl, fun _ => rfl⟩
        | versionNegotiation =>
          rw [show (longReader bp c .versionNegotiation s).1.isPanic = false from vn_noPanic.bind (fun q => NoPanic.pure (Packet.versionNegotiation q)) s]
          constructor
          · intro h; cases h
          · rintro (h | ⟨sp, k', pre, lb, L, pnP, smp, s2, m0, m1, m2, m3, m4, r, ⟨h, _⟩ | ⟨h, _⟩ | ⟨h, _⟩, _⟩) <;> cases h
        | oneRtt => exact absurd hkind (not_oneRtt _ hl.choose_spec.2.2)
        | statelessReset => exact absurd hkind (by unfold packetKind; split <;> first | exact PacketType.noConfusion | (split <;> first | exact PacketType.noConfusion | (split <;> exact PacketType.noConfusion)))

/-- Where a number can always be read: in builds that do not check overflow, and if what is acknowledged is in the range of RFC 9000 (or nothing is). -/
theorem C127_read_always (bp : Profile) (a : Option Nat) (b : Bytes) (hb : b.length ≤ 4) (h : bp = .release ∨ ∀ x, a = some x → x < 2 ^ 62) :
    ∃ n, n < 2 ^ 64 ∧ NumberRead bp a b n := by
  have hpl : beNat b < 2 ^ 32 :=
    Nat.lt_of_lt_of_le (beNat_lt b) (Nat.le_trans (Nat.pow_le_pow_right (by decide) hb) (by decide))
  cases a with
  | none => exact ⟨beNat b, by omega, rfl⟩
  | some x =>
    refine ⟨_, Nat.mod_lt _ (by decide), rfl, fun hd => ?_⟩
    rcases h with h | h
    · rw [hd] at h; cases h
    · have hx := h x rfl
      have hk : 2 ^ b.length ≤ 2 ^ 4 := Nat.pow_le_pow_right (by decide) hb
      have hdm := Nat.mul_div_le x (2 ^ b.length)
      refine ⟨?_, fun _ => by omega⟩
      have : 2 ^ b.length * (x / 2 ^ b.length + if x / 2 ^ 32 < beNat b then 0 else 1) ≤ x + 2 ^ b.length := by
        have hk0 : 0 < 2 ^ b.length := Nat.pow_pos (by decide)
        rw [Nat.mul_add]
        split <;> omega
      exact Nat.lt_of_le_of_lt (Nat.add_le_add_right (Nat.mod_le _ _) _) (by omega)

/-- `reconstruct_remote_pn` on any connection: what it returns, when it panics, and that it is never an error. -/
theorem C127_number (bp : Profile) (c : Connection) (sp : PnSpace) (b : Bytes) :
    (∀ n, c.reconstructRemotePn bp sp b = .ok n ↔ b.length ≤ 4 ∧ NumberRead bp ((c.pnInfo sp).largestRemoteAck.map BitVec.toNat) b n.toNat) ∧
    ((c.reconstructRemotePn bp sp b).isPanic = true ↔
      4 < b.length ∨ ∀ n, n < 2 ^ 64 → ¬ NumberRead bp ((c.pnInfo sp).largestRemoteAck.map BitVec.toNat) b n) ∧
    (c.reconstructRemotePn bp sp b).isErr = false := by
  refine ⟨fun n => ?_, reconstruct_panics bp c sp b, reconstruct_noErr bp c sp b⟩
  by_cases hl : b.length ≤ 4
  · exact (reconstruct_reads bp c sp hl n).trans ⟨fun h => ⟨hl, h⟩, fun h => h.2⟩
  · refine ⟨fun h => ?_, fun h => absurd h.1 hl⟩
    have := reconstruct_long_panics bp c sp b (by omega)
    rw [h] at this
    cases this

/-- Reading 2 after 100: 102 is read, not 2 and not 101; near the end of the range nothing can be read where overflow is checked, and a number that has wrapped
around where it is not. -/
example : NumberRead .debug (some 100) [2] 102 ∧ ¬ NumberRead .debug (some 100) [2] 2 ∧
    (∀ n, n < 2 ^ 64 → ¬ NumberRead .debug (some (2 ^ 64 - 3)) [0xff] n) ∧
    NumberRead .release (some (2 ^ 64 - 3)) [0xff] 253 := by
  refine ⟨⟨by decide, fun _ => ⟨by decide, by decide⟩⟩, fun h => absurd h.1 (by decide), fun n _ h => absurd (h.2 rfl).1 (by decide), by decide, nofun⟩

/-- A connection with Handshake keys and a number acknowledged, and a Handshake packet with the packet number bytes 0, 0, 0, 37, sealed under number 133. -/
def exAcked (a : U64) : Connection := { exHsConn with handshakePnInfo := { exHsConn.handshakePnInfo with largestRemoteAck := some a } }
def exAckedCt : Bytes × Bytes :=
  (Spec.toy.gcmSeal exKeys.key (rfcNonce exKeys.iv [0, 0, 0, 0, 0, 0, 0, 133]) ([(exHsHeader 4).headerByte] ++ exHsMid 4 ++ [0, 0, 0, 37]) exPayload).getD ([], [])
def exAckedOut : Bytes :=
  match (Spec.toy.aesEcb exKeys.hp ((exAckedCt.1 ++ exAckedCt.2).take 16)).getD [] with
  | m0 :: m1 :: m2 :: m3 :: m4 :: _ => [(exHsHeader 4).headerByte ^^^ (m0 &&& 0x0f)] ++ exHsMid 4 ++ [0, 0, 0, 37].zipWith (· ^^^ ·) [m1, m2, m3, m4] ++ exAckedCt.1 ++ exAckedCt.2
  | _ => []
/-- After 100 it is accepted, as number 133; after 2^64 - 17 there is no number to read, and the debug build panics; the release build reads 21 and rejects it. -/
example : (match (decodeNextPacket .debug (exAcked 100) (makeResultStream exAckedOut)).1 with | .ok (.handshake p) => p.packetNumber == 133 | _ => false) = true ∧
    (decodeNextPacket .debug (exAcked (-17)) (makeResultStream exAckedOut)).1.isPanic = true ∧
    (decodeNextPacket .release (exAcked (-17)) (makeResultStream exAckedOut)).1.isErr = true := by decide +kernel
/-- The hypotheses of `C127_panics` hold of it. -/
example : ∀ sp, (∃ k, KeyLens k ∧ (exAcked (-17)).remoteSecrets sp = .ok (secretsOf Spec.toy k)) ∨ ∃ e, (exAcked (-17)).remoteSecrets sp = .err e := by
  intro sp
  cases sp with
  | initial =>
    obtain ⟨⟨_, kr, _, hl, _, hk⟩, _⟩ := reachable_keys (c := (exClient.run .debug exOps).2) Spec.toy_laws ⟨false, .v1, _, 8, exClient, exOps, exClient_new, rfl⟩
    exact .inl ⟨kr, hl, hk⟩
  | handshake => exact .inl ⟨exKeys, exKeys_lens, rfl⟩
  | application => exact .inr ⟨_, rfl⟩

end QuicSea
