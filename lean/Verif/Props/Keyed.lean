import Verif.Props.AppData
import Verif.Props.Local
/-
C33 and C35 for connections that hold keys of every space: packets the AEAD rejects are errors, and the exact inputs that panic.
-/
namespace QuicSea
open Spec

/-- Opening fails: an error, in whatever space. -/
theorem tail_rejected {P : Prims} {bp : Profile} {c : Connection} {sp : PnSpace} {whole : Bool} {lenOf : Mask → Out Nat} {hdr : Mask → Out Bytes}
    {payload : Nat → Rd Bytes} {mid : Bytes} {k : Keys} (hk : c.remoteSecrets sp = .ok (secretsOf P k)) (hack : (c.pnInfo sp).largestRemoteAck = none)
    {pnP ct tag hbs : Bytes} {m : Mask} {n : Nat} {s s' : Stream} (hpn : pnP.length = 4) (ht : tag.length = 16)
    (hm : hpMaskAes128Ecb P k.hp ((ct ++ tag).take 16) = .ok m) (hn : lenOf m = .ok n) (hn4 : n ≤ 4)
    (hpay : payload n (makeResultStream (ct ++ tag) ++ s) = (.ok (ct ++ tag), s')) (hh : hdr m = .ok hbs)
    (ho : P.gcmOpen k.key (packetNonce k.iv (BitVec.ofNat 64 (beNat (if whole then pnP.zipWith (· ^^^ ·) (maskList m) else (pnP.zipWith (· ^^^ ·) (maskList m)).take n))))
      (hbs ++ mid ++ (pnP.zipWith (· ^^^ ·) (maskList m)).take n) ct tag = none) :
    (tail bp c sp whole lenOf hdr payload mid (makeResultStream pnP ++ (makeResultStream (ct ++ tag) ++ s))).1.isErr = true := by
  have h16 : 16 ≤ (ct ++ tag).length := by rw [List.length_append]; omega
  have hs : makeResultStream (ct ++ tag) ++ s = makeResultStream ((ct ++ tag).take 16) ++ (makeResultStream ((ct ++ tag).drop 16) ++ s) := by
    rw [← List.append_assoc, ← makeResultStream_append, List.take_append_drop]
  have hle : (if whole then pnP.zipWith (· ^^^ ·) (maskList m) else (pnP.zipWith (· ^^^ ·) (maskList m)).take n).length ≤ 4 := by
    split
    · simp [hpn, maskList]
    · rw [List.length_take]; omega
  rw [tail_eval hk hpn hs (by rw [List.length_take]; omega) hm hn hn4 (reconstruct_none bp c sp _ hle hack), Rd.bind_ok hpay]
  unfold tailEnd
  rw [Rd.bind_ok (a := hbs) (s' := s') (by rw [Rd.lift_apply, hh])]
  apply Rd.bind_isErr'
  rw [Rd.lift_apply, decrypt_eq hk]
  generalize packetNonce k.iv _ = nonce at ho ⊢
  generalize hbs ++ mid ++ _ = ad at ho ⊢
  cases hd : internalDecryptAes128Gcm P k.key nonce ad (ct ++ tag) with
  | ok p =>
    obtain ⟨ct', tag', g1, g2, g3⟩ := internalDecrypt_ok.mp hd
    obtain ⟨rfl, rfl⟩ := List.append_inj' g1 (by omega)
    rw [ho] at g3
    cases g3
  | err e => rfl
  | panic w =>
    have := internalDecrypt_panic.mp (show (internalDecryptAes128Gcm P k.key nonce ad (ct ++ tag)).isPanic = true by rw [hd]; rfl)
    omega

theorem nonce_of_bytes {iv nb : Bytes} {v : Nat} (hiv : iv.length = 12) (hn : nb.length = 8 ∧ beNat nb = v) :
    packetNonce iv (BitVec.ofNat 64 v) = rfcNonce iv nb := by
  have hlt : beNat nb < 2 ^ 64 := by have := beNat_lt nb; rw [hn.1] at this; exact this
  rw [← hn.2, packetNonce_eq _ _ (by rw [hiv]; decide)]
  congr 1
  apply beNat_inj
  · rw [toBeBytes_length]; exact hn.1.symm
  · rw [beNat_toBeBytes', ofNat64_toNat hlt]

/-- C33, rejection of Handshake packets, any connection with Handshake keys. The nonce is that of *all four* bytes the code takes for the packet number,
whatever the packet number length. -/
theorem C33_rejected_handshake (P : Prims) (bp : Profile) (c : Connection) (k : Keys) (hkl : KeyLens k)
    (hk : c.remoteSecrets .handshake = .ok (secretsOf P k)) (ha : (c.pnInfo .handshake).largestRemoteAck = none)
    (h : LongPacketHeader) (hb lb pnP ct tag r nb : Bytes) (m0 m1 m2 m3 m4 : U8)
    (w1 : LongFields h (h.headerByte :: hb)) (w2 : packetKind h.headerByte h.version = .handshake)
    (w5 : IsVarInt lb (h.headerByte.toNat % 4 + 1 + (ct ++ tag).length)) (hpn : pnP.length = 4) (ht : tag.length = 16)
    (hm : P.aesEcb k.hp ((ct ++ tag).take 16) = some (m0 :: m1 :: m2 :: m3 :: m4 :: r))
    (hn : nb.length = 8 ∧ beNat nb = beNat (pnP.zipWith (· ^^^ ·) [m1, m2, m3, m4]))
    (ho : P.gcmOpen k.key (rfcNonce k.iv nb)
      ([h.headerByte] ++ (hb ++ lb) ++ (pnP.zipWith (· ^^^ ·) [m1, m2, m3, m4]).take (h.headerByte.toNat % 4 + 1)) ct tag = none)
    (s : Stream) :
    (decodeNextPacket bp c (makeResultStream ([h.headerByte ^^^ (m0 &&& 0x0f)] ++ hb ++ lb ++ pnP ++ ct ++ tag) ++ s)).1.isErr = true := by
  have hm' : hpMaskAes128Ecb P k.hp ((ct ++ tag).take 16) = .ok ⟨m0, m1, m2, m3, m4⟩ := hpMask_ok.mpr ⟨r, hm⟩
  have hv : h.version.toNat ≠ 0 := kind_version (by rw [w2]; decide) (by rw [w2]; decide)
  have w1' := unprot_fields (b := h.headerByte) (pr := false) w1
  have hrem := protHeader_remove { h with isProtected := false } ⟨m0, m1, m2, m3, m4⟩ rfl
  have hl := w5.lt
  have e := decodeNext_wire_handshake (bp := bp) (c := c) (h := { h with isProtected := false }) w1' w2 ⟨m0, m1, m2, m3, m4⟩ (lb ++ pnP ++ (ct ++ tag)) s
  simp only [List.append_assoc, List.cons_append, List.nil_append] at e ⊢
  rw [e]
  apply Rd.bind_isErr'
  rw [show makeResultStream ((h.headerByte ^^^ (m0 &&& 0x0f)) :: (hb ++ (lb ++ (pnP ++ (ct ++ tag))))) ++ s =
    makeResultStream ((h.headerByte ^^^ (m0 &&& 0x0f)) :: (hb ++ lb)) ++ (makeResultStream pnP ++ (makeResultStream (ct ++ tag) ++ s)) by simp]
  have e2 := handshake_run (bp := bp) (c := c) (h := { h with isProtected := false }) w1' w2 w5 ⟨m0, m1, m2, m3, m4⟩ (makeResultStream pnP ++ (makeResultStream (ct ++ tag) ++ s))
  rw [e2]
  apply Rd.bind_isErr'
  refine tail_rejected (s' := s) (n := h.headerByte.toNat % 4 + 1) (hbs := h.headerByte :: hb) hk ha hpn ht hm' ?_ (by omega)
    (lenBytes_reads (by rw [ofNat64_toNat (by omega)]) s) ?_ ?_
  · rw [hrem]; exact pnLength_eq.mpr ⟨rfl, rfl⟩
  · rw [hrem]; exact longFields_toBytes hv w1'
  · rw [if_pos rfl, show maskList ⟨m0, m1, m2, m3, m4⟩ = [m1, m2, m3, m4] from rfl, nonce_of_bytes hkl.2.1 (nb := nb) hn]
    exact ho

/-- C33, rejection of 0-RTT packets. -/
theorem C33_rejected_zero_rtt (P : Prims) (bp : Profile) (c : Connection) (k : Keys) (hkl : KeyLens k)
    (hk : c.remoteSecrets .application = .ok (secretsOf P k)) (ha : (c.pnInfo .application).largestRemoteAck = none)
    (h : LongPacketHeader) (hb lb pnP ct tag r nb : Bytes) (m0 m1 m2 m3 m4 : U8)
    (w1 : LongFields h (h.headerByte :: hb)) (w2 : packetKind h.headerByte h.version = .zeroRtt)
    (w5 : IsVarInt lb (h.headerByte.toNat % 4 + 1 + (ct ++ tag).length)) (hpn : pnP.length = 4) (ht : tag.length = 16)
    (hm : P.aesEcb k.hp ((ct ++ tag).take 16) = some (m0 :: m1 :: m2 :: m3 :: m4 :: r))
    (hn : nb.length = 8 ∧ beNat nb = beNat ((pnP.zipWith (· ^^^ ·) [m1, m2, m3, m4]).take (h.headerByte.toNat % 4 + 1)))
    (ho : P.gcmOpen k.key (rfcNonce k.iv nb)
      ([h.headerByte] ++ (hb ++ lb) ++ (pnP.zipWith (· ^^^ ·) [m1, m2, m3, m4]).take (h.headerByte.toNat % 4 + 1)) ct tag = none)
    (s : Stream) :
    (decodeNextPacket bp c (makeResultStream ([h.headerByte ^^^ (m0 &&& 0x0f)] ++ hb ++ lb ++ pnP ++ ct ++ tag) ++ s)).1.isErr = true := by
  have hm' : hpMaskAes128Ecb P k.hp ((ct ++ tag).take 16) = .ok ⟨m0, m1, m2, m3, m4⟩ := hpMask_ok.mpr ⟨r, hm⟩
  have hv : h.version.toNat ≠ 0 := kind_version (by rw [w2]; decide) (by rw [w2]; decide)
  have w1' := unprot_fields (b := h.headerByte) (pr := false) w1
  have hrem := protHeader_remove { h with isProtected := false } ⟨m0, m1, m2, m3, m4⟩ rfl
  have hl := w5.lt
  have e := decodeNext_wire_zeroRtt (bp := bp) (c := c) (h := { h with isProtected := false }) w1' w2 ⟨m0, m1, m2, m3, m4⟩ (lb ++ pnP ++ (ct ++ tag)) s
  simp only [List.append_assoc, List.cons_append, List.nil_append] at e ⊢
  rw [e]
  apply Rd.bind_isErr'
  rw [show makeResultStream ((h.headerByte ^^^ (m0 &&& 0x0f)) :: (hb ++ (lb ++ (pnP ++ (ct ++ tag))))) ++ s =
    makeResultStream ((h.headerByte ^^^ (m0 &&& 0x0f)) :: (hb ++ lb)) ++ (makeResultStream pnP ++ (makeResultStream (ct ++ tag) ++ s)) by simp]
  have e2 := zeroRtt_run (bp := bp) (c := c) (h := { h with isProtected := false }) w1' w2 w5 ⟨m0, m1, m2, m3, m4⟩ (makeResultStream pnP ++ (makeResultStream (ct ++ tag) ++ s))
  rw [e2]
  apply Rd.bind_isErr'
  refine tail_rejected (s' := s) (n := h.headerByte.toNat % 4 + 1) (hbs := h.headerByte :: hb) hk ha hpn ht hm' ?_ (by omega)
    (lenBytes_reads (by rw [ofNat64_toNat (by omega)]) s) ?_ ?_
  · rw [hrem]; exact pnLength_eq.mpr ⟨rfl, rfl⟩
  · rw [hrem]; exact longFields_toBytes hv w1'
  · rw [if_neg (by decide), show maskList ⟨m0, m1, m2, m3, m4⟩ = [m1, m2, m3, m4] from rfl, nonce_of_bytes hkl.2.1 (nb := nb) hn]
    exact ho

/-- C33, rejection of 1-RTT packets (which run to the end of the datagram). -/
theorem C33_rejected_one_rtt (P : Prims) (bp : Profile) (c : Connection) (k : Keys) (hkl : KeyLens k)
    (hk : c.remoteSecrets .application = .ok (secretsOf P k)) (ha : (c.pnInfo .application).largestRemoteAck = none)
    (h : ShortPacketHeader) (hb pnP ct tag r nb : Bytes) (m0 m1 m2 m3 m4 : U8)
    (w1 : ShortFields h (h.headerByte :: hb)) (w2 : h.headerByte.toNat < 128) (hpn : pnP.length = 4) (ht : tag.length = 16)
    (hm : P.aesEcb k.hp ((ct ++ tag).take 16) = some (m0 :: m1 :: m2 :: m3 :: m4 :: r))
    (hn : nb.length = 8 ∧ beNat nb = beNat ((pnP.zipWith (· ^^^ ·) [m1, m2, m3, m4]).take (h.headerByte.toNat % 4 + 1)))
    (ho : P.gcmOpen k.key (rfcNonce k.iv nb)
      ([h.headerByte] ++ hb ++ (pnP.zipWith (· ^^^ ·) [m1, m2, m3, m4]).take (h.headerByte.toNat % 4 + 1)) ct tag = none) :
    (decodeNextPacket bp c (makeResultStream ([h.headerByte ^^^ (m0 &&& 0x1f)] ++ hb ++ pnP ++ ct ++ tag))).1.isErr = true := by
  have hm' : hpMaskAes128Ecb P k.hp ((ct ++ tag).take 16) = .ok ⟨m0, m1, m2, m3, m4⟩ := hpMask_ok.mpr ⟨r, hm⟩
  have w1' : ShortFields { h with isProtected := false } (h.headerByte :: hb) := w1
  have hrem := protShort_remove { h with isProtected := false } ⟨m0, m1, m2, m3, m4⟩ rfl
  have e := oneRtt_run (bp := bp) (c := c) (h := { h with isProtected := false }) w1' w2 ⟨m0, m1, m2, m3, m4⟩ (makeResultStream pnP ++ (makeResultStream (ct ++ tag) ++ []))
  rw [show makeResultStream ([h.headerByte ^^^ (m0 &&& 0x1f)] ++ hb ++ pnP ++ ct ++ tag) =
    makeResultStream ((h.headerByte ^^^ (m0 &&& 0x1f)) :: hb) ++ (makeResultStream pnP ++ (makeResultStream (ct ++ tag) ++ [])) by simp, e]
  apply Rd.bind_isErr'
  refine tail_rejected (s' := []) (n := h.headerByte.toNat % 4 + 1) (hbs := h.headerByte :: hb) hk ha hpn ht hm' ?_ (by omega)
    (by rw [List.append_nil]; exact allBytes_run _) ?_ ?_
  · rw [hrem]; exact short_pnLength rfl
  · rw [hrem]; exact short_toBytes w1'
  · rw [if_neg (by decide), show maskList ⟨m0, m1, m2, m3, m4⟩ = [m1, m2, m3, m4] from rfl, nonce_of_bytes hkl.2.1 (nb := nb) hn, List.append_nil]
    exact ho

/-! ## C35 with keys -/

/-- When decoding a Handshake packet panics. -/
theorem handshake_panic_iff {P : Prims} (hP : PrimLaws P) {bp : Profile} {c : Connection} {k : Keys}
    (hk : c.remoteSecrets .handshake = .ok (secretsOf P k)) (hkl : k.hp.length = 16) (hack : (c.pnInfo .handshake).largestRemoteAck = none)
    {s s1 : Stream} {x : LongPacketHeader} (hx : nextHeaderFromStream s = (.ok (.long x), s1))
    (hkind : packetKind x.headerByte x.version = .handshake) :
    (PacketHandshake.fromStream bp c s).1.isPanic = true ↔
    ∃ lb L pnP smp s2 m, s1 = makeResultStream (lb ++ pnP ++ smp) ++ s2 ∧ IsVarInt lb L ∧
      pnP.length = 4 ∧ smp.length = 16 ∧ hpMaskAes128Ecb P k.hp smp = .ok m ∧
      ((x.headerByte ^^^ (m.m0 &&& 0x0f)).toNat % 4 + 1 ≤ L ∧ L < (x.headerByte ^^^ (m.m0 &&& 0x0f)).toNat % 4 + 1 + 16 ∨
        bp = .debug ∧ L < (x.headerByte ^^^ (m.m0 &&& 0x0f)).toNat % 4 + 1) := by
  obtain ⟨hb, e, hf, h128, hp, r1, r2⟩ := long_prefix hx
  have hv : x.version.toNat ≠ 0 := kind_version (by rw [hkind]; decide) (by rw [hkind]; decide)
  rw [hkind] at hp
  have hrem := removeProtection_long (x := x) hp
  have hlen : ∀ m, (x.removeProtection m).packetNumberLength = .ok ((x.headerByte ^^^ (m.m0 &&& 0x0f)).toNat % 4 + 1) := by
    intro m; rw [hrem]; exact pnLength_eq.mpr ⟨rfl, rfl⟩
  have hhdr : ∀ m, ∃ b, (x.removeProtection m).toBytes = .ok b := by
    intro m; rw [hrem]
    exact ⟨_, longFields_toBytes (h := { x with headerByte := x.headerByte ^^^ (m.m0 &&& 0x0f), isProtected := false }) hv (unprot_fields hf)⟩
  rw [handshake_eq, Rd.bind_ok r1, Rd.bind_ok r2]
  constructor
  · intro h
    obtain ⟨⟨l, lb⟩, s4, g3, h3⟩ := Rd.bind_isPanic' h varIntWithBytes_noPanic
    clear h
    obtain ⟨b3, d1, d2, d3⟩ := varIntWithBytes_sound _ _ _ g3
    dsimp only at d2 d3 h3
    subst lb
    rcases Rd.bind_isPanic h3 with h3 | ⟨_, _, _, h3⟩
    · obtain ⟨pnP, smp, s5, m, f1, f2, f3, f4, f5⟩ := (tail_panic_iff hP hk hkl (first := fun m => x.headerByte ^^^ (m.m0 &&& 0x0f)) hlen hhdr hack).mp h3
      exact ⟨b3, l.toNat, pnP, smp, s5, m, by rw [d1, f1]; simp, d3, f2, f3, f4, f5⟩
    · cases h3
  · rintro ⟨lb, L, pnP, smp, s2, m, rfl, hl, f2, f3, f4, f5⟩
    have hl64 : (BitVec.ofNat 64 L).toNat = L := ofNat64_toNat (by have := hl.lt; omega)
    have h3 := (tail_panic_iff (bp := bp) (whole := true) (mid := lb) (L := BitVec.ofNat 64 L) (s := makeResultStream (pnP ++ smp) ++ s2) hP hk hkl
      (first := fun m => x.headerByte ^^^ (m.m0 &&& 0x0f)) hlen hhdr hack).mpr ⟨pnP, smp, s2, m, rfl, f2, f3, f4, by rw [hl64]; exact f5⟩
    rw [show makeResultStream (lb ++ pnP ++ smp) ++ s2 = makeResultStream lb ++ (makeResultStream (pnP ++ smp) ++ s2) by simp]
    rw [Rd.bind_ok (varIntWithBytes_reads (v := BitVec.ofNat 64 L) (by rw [hl64]; exact hl) _)]
    rw [Rd.bind_apply]
    generalize tail bp c .handshake true _ _ _ _ _ = y at h3
    obtain ⟨o, s3⟩ := y
    cases o with
    | ok a => cases h3
    | err a => cases h3
    | panic a => rfl

/-- When decoding a 0-RTT packet panics. -/
theorem zeroRtt_panic_iff {P : Prims} (hP : PrimLaws P) {bp : Profile} {c : Connection} {k : Keys}
    (hk : c.remoteSecrets .application = .ok (secretsOf P k)) (hkl : k.hp.length = 16) (hack : (c.pnInfo .application).largestRemoteAck = none)
    {s s1 : Stream} {x : LongPacketHeader} (hx : nextHeaderFromStream s = (.ok (.long x), s1))
    (hkind : packetKind x.headerByte x.version = .zeroRtt) :
    (PacketZeroRtt.fromStream bp c s).1.isPanic = true ↔
    ∃ lb L pnP smp s2 m, s1 = makeResultStream (lb ++ pnP ++ smp) ++ s2 ∧ IsVarInt lb L ∧
      pnP.length = 4 ∧ smp.length = 16 ∧ hpMaskAes128Ecb P k.hp smp = .ok m ∧
      ((x.headerByte ^^^ (m.m0 &&& 0x0f)).toNat % 4 + 1 ≤ L ∧ L < (x.headerByte ^^^ (m.m0 &&& 0x0f)).toNat % 4 + 1 + 16 ∨
        bp = .debug ∧ L < (x.headerByte ^^^ (m.m0 &&& 0x0f)).toNat % 4 + 1) := by
  obtain ⟨hb, e, hf, h128, hp, r1, r2⟩ := long_prefix hx
  have hv : x.version.toNat ≠ 0 := kind_version (by rw [hkind]; decide) (by rw [hkind]; decide)
  rw [hkind] at hp
  have hrem := removeProtection_long (x := x) hp
  have hlen : ∀ m, (x.removeProtection m).packetNumberLength = .ok ((x.headerByte ^^^ (m.m0 &&& 0x0f)).toNat % 4 + 1) := by
    intro m; rw [hrem]; exact pnLength_eq.mpr ⟨rfl, rfl⟩
  have hhdr : ∀ m, ∃ b, (x.removeProtection m).toBytes = .ok b := by
    intro m; rw [hrem]
    exact ⟨_, longFields_toBytes (h := { x with headerByte := x.headerByte ^^^ (m.m0 &&& 0x0f), isProtected := false }) hv (unprot_fields hf)⟩
  rw [zeroRtt_eq, Rd.bind_ok r1, Rd.bind_ok r2]
  constructor
  · intro h
    obtain ⟨⟨l, lb⟩, s4, g3, h3⟩ := Rd.bind_isPanic' h varIntWithBytes_noPanic
    clear h
    obtain ⟨b3, d1, d2, d3⟩ := varIntWithBytes_sound _ _ _ g3
    dsimp only at d2 d3 h3
    subst lb
    rcases Rd.bind_isPanic h3 with h3 | ⟨_, _, _, h3⟩
    · obtain ⟨pnP, smp, s5, m, f1, f2, f3, f4, f5⟩ := (tail_panic_iff hP hk hkl (first := fun m => x.headerByte ^^^ (m.m0 &&& 0x0f)) hlen hhdr hack).mp h3
      exact ⟨b3, l.toNat, pnP, smp, s5, m, by rw [d1, f1]; simp, d3, f2, f3, f4, f5⟩
    · cases h3
  · rintro ⟨lb, L, pnP, smp, s2, m, rfl, hl, f2, f3, f4, f5⟩
    have hl64 : (BitVec.ofNat 64 L).toNat = L := ofNat64_toNat (by have := hl.lt; omega)
    have h3 := (tail_panic_iff (bp := bp) (whole := false) (mid := lb) (L := BitVec.ofNat 64 L) (s := makeResultStream (pnP ++ smp) ++ s2) hP hk hkl
      (first := fun m => x.headerByte ^^^ (m.m0 &&& 0x0f)) hlen hhdr hack).mpr ⟨pnP, smp, s2, m, rfl, f2, f3, f4, by rw [hl64]; exact f5⟩
    rw [show makeResultStream (lb ++ pnP ++ smp) ++ s2 = makeResultStream lb ++ (makeResultStream (pnP ++ smp) ++ s2) by simp]
    rw [Rd.bind_ok (varIntWithBytes_reads (v := BitVec.ofNat 64 L) (by rw [hl64]; exact hl) _)]
    rw [Rd.bind_apply]
    generalize tail bp c .application false _ _ _ _ _ = y at h3
    obtain ⟨o, s3⟩ := y
    cases o with
    | ok a => cases h3
    | err a => cases h3
    | panic a => rfl

/-- Decoding a 1-RTT packet never panics: the sample, of which there must be 16 bytes, is part of the ciphertext. -/
theorem oneRtt_noPanic {P : Prims} (hP : PrimLaws P) {bp : Profile} {c : Connection} {k : Keys}
    (hk : c.remoteSecrets .application = .ok (secretsOf P k)) (hkl : k.hp.length = 16) (hack : (c.pnInfo .application).largestRemoteAck = none) :
    NoPanic (PacketOneRtt.fromStream bp c) := by
  intro s
  cases hp : (PacketOneRtt.fromStream bp c s).1.isPanic with
  | false => rfl
  | true =>
    exfalso
    rw [oneRtt_eq] at hp
    obtain ⟨b, s1, g1, h1⟩ := Rd.bind_isPanic' hp u8_noPanic
    obtain ⟨x, s2, g2, h2⟩ := Rd.bind_isPanic' h1 (short_noPanic _)
    have hxp : x.isProtected = true := by
      unfold ShortPacketHeader.fromStream at g2
      obtain ⟨d, s3, _, e⟩ := Rd.bind_eq_ok g2
      rw [Rd.pure_apply] at e
      cases e
      rfl
    rcases Rd.bind_isPanic h2 with h3 | ⟨_, _, _, h3⟩
    · obtain ⟨pnP, s3, n, m, smp, s4, e1, e2, e3, e4, e5, e6, e7⟩ := tail_panic hP hk hkl
        (fun m => ⟨_, short_pnLength (h := x.removeProtection m) (by unfold ShortPacketHeader.removeProtection; rw [hxp]; rfl), by omega⟩)
        (fun m => by
          unfold ShortPacketHeader.toBytes
          obtain ⟨b, e, _⟩ := toVarBytes_spec (x.removeProtection m).destinationConnectionId 8 (by decide)
          rw [e]; rfl) hack h3
      rcases e7 with e7 | ⟨data, s5, e7, e8⟩
      · rw [allBytes_noPanic s3] at e7; cases e7
      · obtain ⟨e9, _⟩ := allBytes_ok e7
        have := congrArg List.length (e4.symm.trans e9)
        simp [makeResultStream] at this
        omega
    · cases h3

/-- What stands between the header and the Length: a token in Initial packets, nothing in the others. -/
def BeforeLength (kind : PacketType) (pre : Bytes) : Prop :=
  match kind with
  | .initial => ∃ tl token, pre = tl ++ token ∧ IsVarInt tl token.length
  | _ => pre = []
/-- The packet number space of a packet with a Length field. -/
def KindIn (kind : PacketType) (sp : PnSpace) : Prop :=
  kind = .initial ∧ sp = .initial ∨ kind = .handshake ∧ sp = .handshake ∨ kind = .zeroRtt ∧ sp = .application

/-- A packet with a Length field and keys to open it, of which at least the Length, four bytes for the packet number and the 16-byte sample are there,
and whose Length `L` leaves no room for the 16-byte tag behind the packet number (`n ≤ L < n + 16`; in debug builds also `L < n`). -/
def ShortLength (P : Prims) (c : Connection) (bp : Profile) (kind : PacketType) (first : U8) (rest : Stream) : Prop :=
  ∃ sp k pre lb L pnP sample s m0 m1 m2 m3 m4 r, KindIn kind sp ∧ c.remoteSecrets sp = .ok (secretsOf P k) ∧
    rest = makeResultStream (pre ++ lb ++ pnP ++ sample) ++ s ∧
    BeforeLength kind pre ∧ IsVarInt lb L ∧ pnP.length = 4 ∧ sample.length = 16 ∧
    P.aesEcb k.hp sample = some (m0 :: m1 :: m2 :: m3 :: m4 :: r) ∧
    ((first ^^^ (m0 &&& 0x0f)).toNat % 4 + 1 ≤ L ∧ L < (first ^^^ (m0 &&& 0x0f)).toNat % 4 + 1 + 16 ∨
      bp = .debug ∧ L < (first ^^^ (m0 &&& 0x0f)).toNat % 4 + 1)

theorem mapped_isPanic {α β : Type} (m : Rd α) (f : α → β) (s : Stream) : ((m >>= fun res => pure (f res)) s).1.isPanic = (m s).1.isPanic := by
  rw [Rd.bind_apply]
  rcases m s with ⟨o, s2⟩
  cases o <;> rfl
theorem out_errNo {α : Type} {o : Out α} (h : o.isErr = true) : o.isPanic = false := by cases o <;> first | rfl | cases h

/-- C35, exactly when decoding one packet panics, on every connection whatever keys it holds (none, or some in each space): no complete header; a Retry
packet; or an Initial, Handshake or 0-RTT packet with a short Length and keys to open it. 1-RTT packets never panic.
Missing for the full statement: that these cases do not occur, which is false (`C35_false`). -/
theorem C35_exact_panic_keys_partial (P : Prims) (hP : PrimLaws P) (bp : Profile) (c : Connection)
    (hks : ∀ sp, (∃ k, KeyLens k ∧ c.remoteSecrets sp = .ok (secretsOf P k)) ∨ ∃ e, c.remoteSecrets sp = .err e)
    (ha : ∀ sp, (c.pnInfo sp).largestRemoteAck = none) (s : Stream) :
    (decodeNextPacket bp c s).1.isPanic = true ↔
      ((∀ h rest, ¬ LongAt s h rest) ∧ (∀ h rest, ¬ ShortAt s h rest)) ∨
      (∃ h rest, LongAt s h rest ∧ packetKind h.headerByte h.version = .retry) ∨
      (∃ h rest, LongAt s h rest ∧ ShortLength P c bp (packetKind h.headerByte h.version) h.headerByte rest) := by
  cases hx : nextHeaderFromStream s with
  | mk o s1 =>
    cases o with
    | err e =>
      refine ⟨fun _ => Or.inl ⟨?_, ?_⟩, fun _ => decodeNext_err hx⟩
      · intro h rest hl; rw [longAt_next hl] at hx; cases hx
      · intro h rest hl; rw [shortAt_next hl] at hx; cases hx
    | panic w =>
      have := nextHeader_noPanic s
      rw [hx] at this
      cases this
    | ok x =>
      cases x with
      | short x =>
        have h1 : (decodeNextPacket bp c s).1.isPanic = false := by
          rw [decodeNext_short hx]
          rcases hks .application with ⟨k, hkl, hk⟩ | ⟨e, he⟩
          · rw [mapped_isPanic]; exact oneRtt_noPanic hP hk hkl.1 (ha _) s
          · exact out_errNo (Rd.bind_isErr' (oneRtt_noKeys he s))
        rw [h1]
        constructor
        · intro h; cases h
        · rintro (⟨_, h2⟩ | ⟨h, rest, hl, _⟩ | ⟨h, rest, hl, _⟩)
          · exact absurd (next_shortAt hx) (h2 x s1)
          · rw [longAt_next hl] at hx; cases hx
          · rw [longAt_next hl] at hx; cases hx
      | long x =>
        have hl := next_longAt hx
        have same : ∀ h rest, LongAt s h rest → h.headerByte = x.headerByte ∧ h.version = x.version ∧ rest = s1 := by
          intro h rest hl'
          rw [longAt_next hl'] at hx
          cases hx
          exact ⟨rfl, rfl, rfl⟩
        -- it is enough to look at the header `x`
        suffices hs : (decodeNextPacket bp c s).1.isPanic = true ↔ packetKind x.headerByte x.version = .retry ∨
            ShortLength P c bp (packetKind x.headerByte x.version) x.headerByte s1 by
          rw [hs]
          constructor
          · rintro (h | h)
            · exact .inr (.inl ⟨x, s1, hl, h⟩)
            · exact .inr (.inr ⟨x, s1, hl, h⟩)
          · rintro (⟨h2, _⟩ | ⟨h, rest, hl', e⟩ | ⟨h, rest, hl', e⟩)
            · exact absurd hl (h2 x s1)
            · obtain ⟨e1, e2, _⟩ := same h rest hl'; rw [e1, e2] at e; exact .inl e
            · obtain ⟨e1, e2, e3⟩ := same h rest hl'; rw [e1, e2, e3] at e; exact .inr e
        rw [decodeNext_long hx]
        cases hkind : packetKind x.headerByte x.version with
        | initial =>
          rw [show (longReader bp c .initial s).1.isPanic = (PacketInitial.fromStream bp c s).1.isPanic from mapped_isPanic (PacketInitial.fromStream bp c) Packet.initial s]
          rcases hks .initial with ⟨k, hkl, hk⟩ | ⟨e, he⟩
          · rw [initial_panic_iff (bp := bp) hP hk hkl.1 (ha _) hx hkind]
            constructor
            · rintro ⟨tl, tok, lb, L, pnP, smp, s2, m, a1, a2, a3, a4, a5, a6, a7⟩
              obtain ⟨r, a6⟩ := hpMask_ok.mp a6
              exact .inr ⟨.initial, k, tl ++ tok, lb, L, pnP, smp, s2, _, _, _, _, _, r, .inl ⟨rfl, rfl⟩, hk, a1, ⟨tl, tok, rfl, a2⟩, a3, a4, a5, a6, a7⟩
            · rintro (h | ⟨sp, k', pre, lb, L, pnP, smp, s2, m0, m1, m2, m3, m4, r, ⟨_, rfl⟩ | ⟨h, _⟩ | ⟨h, _⟩, hk', a1, ⟨tl, tok, rfl, a2⟩, a3, a4, a5, a6, a7⟩)
              · cases h
              · have e : secretsOf P k = secretsOf P k' := Out.ok.inj (hk.symm.trans hk')
                have e : k.hp = k'.hp := congrArg Secrets.hp e
                exact ⟨tl, tok, lb, L, pnP, smp, s2, ⟨m0, m1, m2, m3, m4⟩, a1, a2, a3, a4, a5, hpMask_ok.mpr ⟨r, by rw [e]; exact a6⟩, a7⟩
              · cases h
              · cases h
          · rw [out_errNo (initial_noKeys he s)]
            constructor
            · intro h; cases h
            · rintro (h | ⟨sp, k', pre, lb, L, pnP, smp, s2, m0, m1, m2, m3, m4, r, ⟨_, rfl⟩ | ⟨h, _⟩ | ⟨h, _⟩, hk', _⟩)
              · cases h
              · rw [he] at hk'; cases hk'
              · cases h
              · cases h
        | handshake =>
          rw [show (longReader bp c .handshake s).1.isPanic = (PacketHandshake.fromStream bp c s).1.isPanic from mapped_isPanic (PacketHandshake.fromStream bp c) Packet.handshake s]
          rcases hks .handshake with ⟨k, hkl, hk⟩ | ⟨e, he⟩
          · rw [handshake_panic_iff (bp := bp) hP hk hkl.1 (ha _) hx hkind]
            constructor
            · rintro ⟨lb, L, pnP, smp, s2, m, a1, a3, a4, a5, a6, a7⟩
              obtain ⟨r, a6⟩ := hpMask_ok.mp a6
              exact .inr ⟨.handshake, k, [], lb, L, pnP, smp, s2, _, _, _, _, _, r, .inr (.inl ⟨rfl, rfl⟩), hk, a1, rfl, a3, a4, a5, a6, a7⟩
            · rintro (h | ⟨sp, k', pre, lb, L, pnP, smp, s2, m0, m1, m2, m3, m4, r, ⟨h, _⟩ | ⟨_, rfl⟩ | ⟨h, _⟩, hk', a1, a2, a3, a4, a5, a6, a7⟩)
              · cases h
              · cases h
              · have e : secretsOf P k = secretsOf P k' := Out.ok.inj (hk.symm.trans hk')
                have e : k.hp = k'.hp := congrArg Secrets.hp e
                rw [show pre = [] from a2] at a1
                exact ⟨lb, L, pnP, smp, s2, ⟨m0, m1, m2, m3, m4⟩, a1, a3, a4, a5, hpMask_ok.mpr ⟨r, by rw [e]; exact a6⟩, a7⟩
              · cases h
          · rw [out_errNo (handshake_noKeys he s)]
            constructor
            · intro h; cases h
            · rintro (h | ⟨sp, k', pre, lb, L, pnP, smp, s2, m0, m1, m2, m3, m4, r, ⟨h, _⟩ | ⟨_, rfl⟩ | ⟨h, _⟩, hk', _⟩)
              · cases h
              · cases h
              · rw [he] at hk'; cases hk'
              · cases h
        | zeroRtt =>
          rw [show (longReader bp c .zeroRtt s).1.isPanic = (PacketZeroRtt.fromStream bp c s).1.isPanic from mapped_isPanic (PacketZeroRtt.fromStream bp c) Packet.zeroRtt s]
          rcases hks .application with ⟨k, hkl, hk⟩ | ⟨e, he⟩
          · rw [zeroRtt_panic_iff (bp := bp) hP hk hkl.1 (ha _) hx hkind]
            constructor
            · rintro ⟨lb, L, pnP, smp, s2, m, a1, a3, a4, a5, a6, a7⟩
              obtain ⟨r, a6⟩ := hpMask_ok.mp a6
              exact .inr ⟨.application, k, [], lb, L, pnP, smp, s2, _, _, _, _, _, r, .inr (.inr ⟨rfl, rfl⟩), hk, a1, rfl, a3, a4, a5, a6, a7⟩
            · rintro (h | ⟨sp, k', pre, lb, L, pnP, smp, s2, m0, m1, m2, m3, m4, r, ⟨h, _⟩ | ⟨h, _⟩ | ⟨_, rfl⟩, hk', a1, a2, a3, a4, a5, a6, a7⟩)
              · cases h
              · cases h
              · cases h
              · have e : secretsOf P k = secretsOf P k' := Out.ok.inj (hk.symm.trans hk')
                have e : k.hp = k'.hp := congrArg Secrets.hp e
                rw [show pre = [] from a2] at a1
                exact ⟨lb, L, pnP, smp, s2, ⟨m0, m1, m2, m3, m4⟩, a1, a3, a4, a5, hpMask_ok.mpr ⟨r, by rw [e]; exact a6⟩, a7⟩
          · rw [out_errNo (zeroRtt_noKeys he s)]
            constructor
            · intro h; cases h
            · rintro (h | ⟨sp, k', pre, lb, L, pnP, smp, s2, m0, m1, m2, m3, m4, r, ⟨h, _⟩ | ⟨h, _⟩ | ⟨_, rfl⟩, hk', _⟩)
              · cases h
              · cases h
              · cases h
              · rw [he] at hk'; cases hk'
        | retry => exact ⟨fun _ => .inl rfl, fun _ => rfl⟩
        | versionNegotiation =>
          rw [show (longReader bp c .versionNegotiation s).1.isPanic = false from vn_noPanic.bind (fun q => NoPanic.pure (Packet.versionNegotiation q)) s]
          constructor
          · intro h; cases h
          · rintro (h | ⟨sp, k', pre, lb, L, pnP, smp, s2, m0, m1, m2, m3, m4, r, ⟨h, _⟩ | ⟨h, _⟩ | ⟨h, _⟩, _⟩) <;> cases h
        | oneRtt => exact absurd hkind (not_oneRtt _ hl.choose_spec.2.2)
        | statelessReset => exact absurd hkind (by unfold packetKind; split <;> first | exact PacketType.noConfusion | (split <;> first | exact PacketType.noConfusion | (split <;> exact PacketType.noConfusion)))

/-- Non-trivial instances. A connection with Handshake keys: a Handshake packet with Length 16, and one with Length 40 but with a wrong tag; with
application keys: the same for 0-RTT; and short 1-RTT packets. -/
example : (decodeNextPacket .release exHsConn (makeResultStream ([0xe3, 0, 0, 0, 1, 0, 0, 16] ++ List.replicate 40 7))).1.isPanic = true ∧
    (decodeNextPacket .release exHsConn (makeResultStream ([0xe3, 0, 0, 0, 1, 0, 0, 40] ++ List.replicate 60 7))).1.isErr = true ∧
    (decodeNextPacket .release exAppConn (makeResultStream ([0xd3, 0, 0, 0, 1, 0, 0, 16] ++ List.replicate 40 7))).1.isPanic = true ∧
    (decodeNextPacket .release exAppConn (makeResultStream ([0xd3, 0, 0, 0, 1, 0, 0, 40] ++ List.replicate 60 7))).1.isErr = true ∧
    (List.range 40).all (fun n => (decodeNextPacket .release exAppConn (makeResultStream (List.replicate (9 + n) 7))).1.isErr) = true := by decide +kernel
/-- The hypotheses of the rejection theorems, met: the RFC packets of the examples of C53, C61 and C62 with a wrong tag. -/
example : (decodeNextPacket .debug exHsConn (makeResultStream ((exHsOut 4).set 58 0x55))).1.isErr = true ∧
    (decodeNextPacket .debug exAppConn (makeResultStream ((exZeroOut 4).set 58 0x55))).1.isErr = true ∧
    (decodeNextPacket .debug exAppConn (makeResultStream ((exOneOut 4).set 48 0x55))).1.isErr = true := by decide +kernel
example : ∀ sp, (∃ k, KeyLens k ∧ exHsConn.remoteSecrets sp = .ok (secretsOf toy k)) ∨ ∃ e, exHsConn.remoteSecrets sp = .err e := by
  intro sp
  cases sp with
  | initial =>
    obtain ⟨⟨_, kr, _, l2, _, m2⟩, _⟩ := reachable_keys (c := exClient) (bp := .debug) toy_laws ⟨false, .v1, ⟨0, 0x0102030405060708⟩, 8, exClient, [], exClient_new, rfl⟩
    exact .inl ⟨kr, l2, ((run_secrets .debug exOps exClient .initial).2.trans m2 :)⟩
  | handshake => exact .inl ⟨exKeys, exKeys_lens, rfl⟩
  | application => exact .inr ⟨_, rfl⟩

end QuicSea
