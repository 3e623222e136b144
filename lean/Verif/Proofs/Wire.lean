import Verif.Proofs.Decode
/-
Running the decoder on packets with known fields.
-/
namespace QuicSea
open Spec

theorem initial_run {bp : Profile} {c : Connection} {h : LongPacketHeader} {hb tl token lb : Bytes} {L : Nat}
    (w1 : LongFields h (h.headerByte :: hb)) (w2 : packetKind h.headerByte h.version = .initial) (w4 : IsVarInt tl token.length) (w5 : IsVarInt lb L)
    (m : Mask) (s : Stream) :
    PacketInitial.fromStream bp c (makeResultStream ((h.headerByte ^^^ (m.m0 &&& 0x0f)) :: (hb ++ tl ++ token ++ lb)) ++ s) =
    (do
      let r ← tail bp c .initial false (fun m' => ((protHeader h m).removeProtection m').packetNumberLength)
        (fun m' => ((protHeader h m).removeProtection m').toBytes) (lenBytes bp (BitVec.ofNat 64 L)) (tl ++ token ++ lb)
      pure { header := (protHeader h m).removeProtection r.1, token, packetNumber := r.2.2.1, packetNumberBytes := r.2.1, packetPayload := r.2.2.2 } : Rd PacketInitial) s := by
  have ht := w4.lt
  have hl := w5.lt
  rw [initial_eq]
  rw [show makeResultStream ((h.headerByte ^^^ (m.m0 &&& 0x0f)) :: (hb ++ tl ++ token ++ lb)) ++ s =
    makeResultStream [h.headerByte ^^^ (m.m0 &&& 0x0f)] ++ (makeResultStream hb ++ (makeResultStream tl ++ (makeResultStream token ++ (makeResultStream lb ++ s)))) by simp]
  rw [Rd.bind_ok (u8_reads (h.headerByte ^^^ (m.m0 &&& 0x0f)) _)]
  rw [Rd.bind_ok (protHeader_reads w1 (by rw [w2]; rfl) (by rw [w2]; decide) _)]
  rw [Rd.bind_ok (varIntWithBytes_reads (v := BitVec.ofNat 64 token.length) (by rw [ofNat64_toNat (by omega)]; exact w4) _)]
  rw [Rd.bind_ok (varBytes_reads' (by rw [ofNat64_toNat (by omega)]) _)]
  rw [Rd.bind_ok (varIntWithBytes_reads (v := BitVec.ofNat 64 L) (by rw [ofNat64_toNat (by omega)]; exact w5) _)]
theorem handshake_run {bp : Profile} {c : Connection} {h : LongPacketHeader} {hb lb : Bytes} {L : Nat}
    (w1 : LongFields h (h.headerByte :: hb)) (w2 : packetKind h.headerByte h.version = .handshake) (w5 : IsVarInt lb L)
    (m : Mask) (s : Stream) :
    PacketHandshake.fromStream bp c (makeResultStream ((h.headerByte ^^^ (m.m0 &&& 0x0f)) :: (hb ++ lb)) ++ s) =
    (do
      let r ← tail bp c .handshake true (fun m' => ((protHeader h m).removeProtection m').packetNumberLength)
        (fun m' => ((protHeader h m).removeProtection m').toBytes) (lenBytes bp (BitVec.ofNat 64 L)) lb
      pure { header := (protHeader h m).removeProtection r.1, packetNumber := r.2.2.1, packetNumberBytes := r.2.1, packetPayload := r.2.2.2 } : Rd PacketHandshake) s := by
  have hl := w5.lt
  rw [handshake_eq]
  rw [show makeResultStream ((h.headerByte ^^^ (m.m0 &&& 0x0f)) :: (hb ++ lb)) ++ s =
    makeResultStream [h.headerByte ^^^ (m.m0 &&& 0x0f)] ++ (makeResultStream hb ++ (makeResultStream lb ++ s)) by simp]
  rw [Rd.bind_ok (u8_reads (h.headerByte ^^^ (m.m0 &&& 0x0f)) _)]
  rw [Rd.bind_ok (protHeader_reads w1 (by rw [w2]; rfl) (by rw [w2]; decide) _)]
  rw [Rd.bind_ok (varIntWithBytes_reads (v := BitVec.ofNat 64 L) (by rw [ofNat64_toNat (by omega)]; exact w5) _)]

/-- The header is found. -/
theorem nextHeader_wire {h : LongPacketHeader} {hb : Bytes} (w1 : LongFields h (h.headerByte :: hb))
    (hpr : protectable (packetKind h.headerByte h.version) = true) (hlong : packetKind h.headerByte h.version ≠ .oneRtt) (m : Mask) (r : Bytes) (s : Stream) :
    nextHeaderFromStream (makeResultStream ((h.headerByte ^^^ (m.m0 &&& 0x0f)) :: (hb ++ r)) ++ s) =
      (.ok (.long (protHeader h m)), makeResultStream r ++ s) := by
  have hk := kind_xor h.headerByte m.m0 h.version
  refine nextHeader_long_iff.mpr ⟨(h.headerByte ^^^ (m.m0 &&& 0x0f)) :: hb, by simp, protHeader_fields w1, ?_, ?_⟩
  · exact kind_long (b := h.headerByte ^^^ (m.m0 &&& 0x0f)) (v := h.version) (by rw [hk]; exact hlong)
  · show true = protectable (packetKind (h.headerByte ^^^ (m.m0 &&& 0x0f)) h.version)
    rw [hk, hpr]
theorem decodeNext_wire_initial {bp : Profile} {c : Connection} {h : LongPacketHeader} {hb : Bytes} (w1 : LongFields h (h.headerByte :: hb))
    (w2 : packetKind h.headerByte h.version = .initial) (m : Mask) (r : Bytes) (s : Stream) :
    decodeNextPacket bp c (makeResultStream ((h.headerByte ^^^ (m.m0 &&& 0x0f)) :: (hb ++ r)) ++ s) =
      (do let res ← PacketInitial.fromStream bp c; pure (Packet.initial res) : Rd Packet)
        (makeResultStream ((h.headerByte ^^^ (m.m0 &&& 0x0f)) :: (hb ++ r)) ++ s) := by
  rw [decodeNext_long (nextHeader_wire w1 (by rw [w2]; rfl) (by rw [w2]; decide) m r s)]
  rw [show packetKind (protHeader h m).headerByte (protHeader h m).version = .initial from (kind_xor _ _ _).trans w2]
  rfl
theorem decodeNext_wire_handshake {bp : Profile} {c : Connection} {h : LongPacketHeader} {hb : Bytes} (w1 : LongFields h (h.headerByte :: hb))
    (w2 : packetKind h.headerByte h.version = .handshake) (m : Mask) (r : Bytes) (s : Stream) :
    decodeNextPacket bp c (makeResultStream ((h.headerByte ^^^ (m.m0 &&& 0x0f)) :: (hb ++ r)) ++ s) =
      (do let res ← PacketHandshake.fromStream bp c; pure (Packet.handshake res) : Rd Packet)
        (makeResultStream ((h.headerByte ^^^ (m.m0 &&& 0x0f)) :: (hb ++ r)) ++ s) := by
  rw [decodeNext_long (nextHeader_wire w1 (by rw [w2]; rfl) (by rw [w2]; decide) m r s)]
  rw [show packetKind (protHeader h m).headerByte (protHeader h m).version = .handshake from (kind_xor _ _ _).trans w2]
  rfl

theorem zipWith_take_self (f : U8 → U8 → U8) (a b : Bytes) : a.zipWith f (b.take a.length) = a.zipWith f b := by
  induction a generalizing b with
  | nil => simp
  | cons x xs ih => cases b with
    | nil => rfl
    | cons y ys => simp [ih]

/-- The converse of `initial_opened`. -/
theorem initial_accepted {P : Prims} {bp : Profile} {c : Connection} {k : Keys} (hk : c.remoteSecrets .initial = .ok (secretsOf P k))
    (hiv : k.iv.length = 12) {p : PacketInitial} {out hb tl lb pl skip : Bytes} {L : Nat} (w1 : LongFields p.header (p.header.headerByte :: hb))
    (hp : p.header.isProtected = false) (w2 : packetKind p.header.headerByte p.header.version = .initial)
    (w4 : IsVarInt tl p.token.length) (w5 : IsVarInt lb L)
    (ho : Opened P k 0x0f p.header.headerByte (hb ++ tl ++ p.token ++ lb) p.packetNumberBytes skip p.packetNumber.toNat pl out)
    (hlen : out.length + p.packetNumberBytes.length = 1 + (hb ++ tl ++ p.token ++ lb).length + L + 4)
    (hr : c.reconstructRemotePn bp .initial p.packetNumberBytes = .ok p.packetNumber)
    (hf : (deserializeFrames (makeResultStream pl)).1 = .ok p.packetPayload) (s : Stream) :
    decodeNextPacket bp c (makeResultStream out ++ s) = (.ok (.initial p), s) := by
  obtain ⟨nb, ct, tag, m0, m1, m2, m3, m4, r, pnM, i1, i2, i3, i4, i5, i6, i7, i8, rfl⟩ := ho
  have hl := w5.lt
  have hv : p.header.version.toNat ≠ 0 := kind_version (by rw [w2]; decide) (by rw [w2]; decide)
  have hrem := protHeader_remove p.header ⟨m0, m1, m2, m3, m4⟩ hp
  have hml : maskList ⟨m0, m1, m2, m3, m4⟩ = [m1, m2, m3, m4] := rfl
  have hpn : p.packetNumberBytes.length = pnM.length := by
    rw [i6, List.length_zipWith]
    rw [List.length_append] at i5
    simp only [List.length_cons, List.length_nil]
    omega
  have htake : ((pnM ++ skip).zipWith (· ^^^ ·) [m1, m2, m3, m4]).take (p.header.headerByte.toNat % 4 + 1) = p.packetNumberBytes := by
    rw [← i4, List.take_zipWith, List.take_left, zipWith_take_self, i6]
  have hnb : nb = toBeBytes 8 p.packetNumber := beNat_inj (by rw [i1, toBeBytes_length]) (by rw [i2, beNat_toBeBytes' 8 _])
  rw [hnb, ← packetNonce_eq k.iv _ (by omega)] at i8
  simp only [List.length_append, List.length_cons, List.length_nil] at hlen i5
  have hsmp : (ct ++ tag).take 16 ++ (ct ++ tag).drop 16 = ct ++ tag := List.take_append_drop ..
  rw [show makeResultStream ([p.header.headerByte ^^^ (m0 &&& 0x0f)] ++ (hb ++ tl ++ p.token ++ lb) ++ pnM ++ skip ++ ct ++ tag) ++ s =
    makeResultStream ((p.header.headerByte ^^^ ((⟨m0, m1, m2, m3, m4⟩ : Mask).m0 &&& 0x0f)) :: (hb ++ (tl ++ p.token ++ lb))) ++
      (makeResultStream (pnM ++ skip) ++ (makeResultStream (ct ++ tag) ++ s)) by simp]
  rw [decodeNext_wire_initial w1 w2 ⟨m0, m1, m2, m3, m4⟩]
  rw [Rd.bind_ok (a := p) (s' := s) ?_]
  · rfl
  rw [show (p.header.headerByte ^^^ ((⟨m0, m1, m2, m3, m4⟩ : Mask).m0 &&& 0x0f)) :: (hb ++ (tl ++ p.token ++ lb)) =
    (p.header.headerByte ^^^ ((⟨m0, m1, m2, m3, m4⟩ : Mask).m0 &&& 0x0f)) :: (hb ++ tl ++ p.token ++ lb) by simp]
  rw [initial_run w1 w2 w4 w5]
  rw [Rd.bind_ok (a := (⟨m0, m1, m2, m3, m4⟩, p.packetNumberBytes, p.packetNumber, p.packetPayload)) (s' := s) ?_]
  · dsimp only
    rw [hrem]
    rfl
  rw [tail_eval hk (m := ⟨m0, m1, m2, m3, m4⟩) (n := p.header.headerByte.toNat % 4 + 1) (pn := p.packetNumber)
    (smp := (ct ++ tag).take 16) (s1 := makeResultStream ((ct ++ tag).drop 16) ++ s) (by rw [List.length_append]; omega)
    (by rw [← List.append_assoc, ← makeResultStream_append, hsmp]) (by rw [List.length_take, List.length_append]; omega)
    (hpMask_ok.mpr ⟨r, i7⟩) (by rw [hrem]; exact pnLength_eq.mpr ⟨hp, rfl⟩) (by omega)
    (by rw [hml, if_neg (by decide), htake]; exact hr)]
  rw [hml, htake]
  rw [Rd.bind_ok (lenBytes_reads (bs := ct ++ tag) (by rw [ofNat64_toNat (by omega), List.length_append]; omega) s)]
  exact tailEnd_run hk (by rw [hrem]; exact longFields_toBytes hv w1) i3 (by simpa using i8) hf s

/-- `decode_next_packet` on an RFC Initial packet with a four-byte packet number. -/
theorem decodeNext_initial_reads {P : Prims} (hP : PrimLaws P) {bp : Profile} {c : Connection} {k : Keys}
    (hk : c.remoteSecrets .initial = .ok (secretsOf P k)) (hiv : k.iv.length = 12) {h : LongPacketHeader} (hp : h.isProtected = false)
    {token pnB payload out : Bytes} {pn : U64} {fs : List Frame} (hw : InitialWire P k h token pnB pn.toNat payload out) (h4 : pnB.length = 4)
    (hr : c.reconstructRemotePn bp .initial pnB = .ok pn) (hf : (deserializeFrames (makeResultStream payload)).1 = .ok fs) :
    Reads (decodeNextPacket bp c) out
      (.initial { header := h, token, packetNumber := pn, packetNumberBytes := pnB, packetPayload := fs }) := by
  intro s
  have hrd := initial_reads hP hk hiv hp hw h4 hr hf s
  obtain ⟨hb, tl, lb, w1, w2, w3, w4, w5, w6⟩ := hw
  obtain ⟨m, ct, tag, rfl, f1, f2, f3, f4, f5⟩ := protected_facts hP hiv w6
  simp only [List.append_assoc] at hrd ⊢
  rw [decodeNext_wire_initial w1 w2, Rd.bind_ok hrd]
  rfl
theorem decodeNext_handshake_reads {P : Prims} (hP : PrimLaws P) {bp : Profile} {c : Connection} {k : Keys}
    (hk : c.remoteSecrets .handshake = .ok (secretsOf P k)) (hiv : k.iv.length = 12) {h : LongPacketHeader} (hp : h.isProtected = false)
    {pnB payload out : Bytes} {pn : U64} {fs : List Frame} (hw : HandshakeWire P k h pnB pn.toNat payload out) (h4 : pnB.length = 4)
    (hr : c.reconstructRemotePn bp .handshake pnB = .ok pn) (hf : (deserializeFrames (makeResultStream payload)).1 = .ok fs) :
    Reads (decodeNextPacket bp c) out
      (.handshake { header := h, packetNumber := pn, packetNumberBytes := pnB, packetPayload := fs }) := by
  intro s
  have hrd := handshake_reads hP hk hiv hp hw h4 hr hf s
  obtain ⟨hb, lb, w1, w2, w3, w5, w6⟩ := hw
  obtain ⟨m, ct, tag, rfl, f1, f2, f3, f4, f5⟩ := protected_facts hP hiv w6
  simp only [List.append_assoc] at hrd ⊢
  rw [decodeNext_wire_handshake w1 w2, Rd.bind_ok hrd]
  rfl

/-- A packet number of fewer than four bytes: if decoding succeeds at all, it has eaten bytes of what follows. -/
theorem initial_short {P : Prims} (hP : PrimLaws P) {bp : Profile} {c : Connection} {k : Keys}
    (hk : c.remoteSecrets .initial = .ok (secretsOf P k)) (hiv : k.iv.length = 12) {h : LongPacketHeader} (hp : h.isProtected = false)
    {token pnB payload out : Bytes} {pn : U64} (hw : InitialWire P k h token pnB pn.toNat payload out) {s s' : Stream} {p : Packet}
    (hd : decodeNextPacket bp c (makeResultStream out ++ s) = (.ok p, s')) : s.length = (4 - pnB.length) + s'.length := by
  obtain ⟨hb, tl, lb, w1, w2, w3, w4, w5, w6⟩ := hw
  have w6' := w6
  obtain ⟨m, ct, tag, rfl, f1, f2, f3, f4, f5⟩ := protected_facts hP hiv w6
  have hl := w5.lt
  have hrem := protHeader_remove h m hp
  have hout : makeResultStream ((h.headerByte ^^^ (m.m0 &&& 0x0f)) :: (hb ++ tl ++ token ++ lb ++ pnB.zipWith (· ^^^ ·) (maskList m) ++ ct ++ tag)) ++ s =
      makeResultStream ((h.headerByte ^^^ (m.m0 &&& 0x0f)) :: (hb ++ tl ++ token ++ lb)) ++ (makeResultStream (pnB.zipWith (· ^^^ ·) (maskList m) ++ (ct ++ tag)) ++ s) := by simp
  have e1 := decodeNext_wire_initial (bp := bp) (c := c) w1 w2 m (tl ++ (token ++ (lb ++ (pnB.zipWith (· ^^^ ·) (maskList m) ++ (ct ++ tag))))) s
  simp only [List.append_assoc] at hd
  rw [e1] at hd
  obtain ⟨q, s2, e2, e3⟩ := Rd.bind_eq_ok hd
  cases e3
  simp only [List.append_assoc] at hout
  rw [hout] at e2
  have hrun := initial_run (bp := bp) (c := c) w1 w2 w4 w5 m (makeResultStream (pnB.zipWith (· ^^^ ·) (maskList m) ++ (ct ++ tag)) ++ s)
  simp only [List.append_assoc] at hrun
  rw [hrun] at e2
  obtain ⟨r, s3, e4, e5⟩ := Rd.bind_eq_ok e2
  cases e5
  refine tail_short hk (by omega) (by simp only [List.length_append]; omega) (by rw [ofNat64_toNat (by omega), List.length_append]; omega) f4 ?_ e4
  rw [hrem]
  exact pnLength_eq.mpr ⟨hp, w3.symm⟩
theorem handshake_short {P : Prims} (hP : PrimLaws P) {bp : Profile} {c : Connection} {k : Keys}
    (hk : c.remoteSecrets .handshake = .ok (secretsOf P k)) (hiv : k.iv.length = 12) {h : LongPacketHeader} (hp : h.isProtected = false)
    {pnB payload out : Bytes} {pn : U64} (hw : HandshakeWire P k h pnB pn.toNat payload out) {s s' : Stream} {p : Packet}
    (hd : decodeNextPacket bp c (makeResultStream out ++ s) = (.ok p, s')) : s.length = (4 - pnB.length) + s'.length := by
  obtain ⟨hb, lb, w1, w2, w3, w5, w6⟩ := hw
  obtain ⟨m, ct, tag, rfl, f1, f2, f3, f4, f5⟩ := protected_facts hP hiv w6
  have hl := w5.lt
  have hrem := protHeader_remove h m hp
  have hout : makeResultStream ((h.headerByte ^^^ (m.m0 &&& 0x0f)) :: (hb ++ lb ++ pnB.zipWith (· ^^^ ·) (maskList m) ++ ct ++ tag)) ++ s =
      makeResultStream ((h.headerByte ^^^ (m.m0 &&& 0x0f)) :: (hb ++ lb)) ++ (makeResultStream (pnB.zipWith (· ^^^ ·) (maskList m) ++ (ct ++ tag)) ++ s) := by simp
  have e1 := decodeNext_wire_handshake (bp := bp) (c := c) w1 w2 m (lb ++ (pnB.zipWith (· ^^^ ·) (maskList m) ++ (ct ++ tag))) s
  simp only [List.append_assoc] at hd
  rw [e1] at hd
  obtain ⟨q, s2, e2, e3⟩ := Rd.bind_eq_ok hd
  cases e3
  simp only [List.append_assoc] at hout
  rw [hout] at e2
  have hrun := handshake_run (bp := bp) (c := c) w1 w2 w5 m (makeResultStream (pnB.zipWith (· ^^^ ·) (maskList m) ++ (ct ++ tag)) ++ s)
  rw [hrun] at e2
  obtain ⟨r, s3, e4, e5⟩ := Rd.bind_eq_ok e2
  cases e5
  refine tail_short hk (by omega) (by simp only [List.length_append]; omega) (by rw [ofNat64_toNat (by omega), List.length_append]; omega) f4 ?_ e4
  rw [hrem]
  exact pnLength_eq.mpr ⟨hp, w3.symm⟩

/-- Opening fails: an error. -/
theorem initial_rejected {P : Prims} {bp : Profile} {c : Connection} {k : Keys} (hk : c.remoteSecrets .initial = .ok (secretsOf P k))
    (hack : (c.pnInfo .initial).largestRemoteAck = none)
    {h : LongPacketHeader} (hp : h.isProtected = false) {hb tl token lb pnP ct tag : Bytes} {m : Mask}
    (w1 : LongFields h (h.headerByte :: hb)) (w2 : packetKind h.headerByte h.version = .initial) (w4 : IsVarInt tl token.length)
    (w5 : IsVarInt lb (h.headerByte.toNat % 4 + 1 + (ct ++ tag).length)) (hpn : pnP.length = 4) (ht : tag.length = 16)
    (hm : hpMaskAes128Ecb P k.hp ((ct ++ tag).take 16) = .ok m)
    (ho : P.gcmOpen k.key (packetNonce k.iv (BitVec.ofNat 64 (beNat ((pnP.zipWith (· ^^^ ·) (maskList m)).take (h.headerByte.toNat % 4 + 1)))))
      ([h.headerByte] ++ (hb ++ tl ++ token ++ lb) ++ (pnP.zipWith (· ^^^ ·) (maskList m)).take (h.headerByte.toNat % 4 + 1)) ct tag = none)
    (s : Stream) :
    (decodeNextPacket bp c (makeResultStream ((h.headerByte ^^^ (m.m0 &&& 0x0f)) :: (hb ++ (tl ++ token ++ lb ++ pnP ++ (ct ++ tag)))) ++ s)).1.isErr = true := by
  have hv : h.version.toNat ≠ 0 := kind_version (by rw [w2]; decide) (by rw [w2]; decide)
  have hrem := protHeader_remove h m hp
  have hl := w5.lt
  rw [decodeNext_wire_initial w1 w2]
  apply Rd.bind_isErr'
  rw [show makeResultStream ((h.headerByte ^^^ (m.m0 &&& 0x0f)) :: (hb ++ (tl ++ token ++ lb ++ pnP ++ (ct ++ tag)))) ++ s =
    makeResultStream ((h.headerByte ^^^ (m.m0 &&& 0x0f)) :: (hb ++ tl ++ token ++ lb)) ++ (makeResultStream pnP ++ (makeResultStream (ct ++ tag) ++ s)) by simp]
  rw [initial_run w1 w2 w4 w5 m]
  apply Rd.bind_isErr'
  have h16 : 16 ≤ (ct ++ tag).length := by rw [List.length_append]; omega
  have hs : makeResultStream (ct ++ tag) ++ s = makeResultStream ((ct ++ tag).take 16) ++ (makeResultStream ((ct ++ tag).drop 16) ++ s) := by
    rw [← List.append_assoc, ← makeResultStream_append, List.take_append_drop]
  rw [tail_eval hk hpn hs (by rw [List.length_take]; omega) hm (n := h.headerByte.toNat % 4 + 1) (by rw [hrem]; exact pnLength_eq.mpr ⟨hp, rfl⟩)
    (by omega) (reconstruct_none bp c .initial _ (by simp only [Bool.false_eq_true, if_false]; rw [List.length_take]; omega) hack)]
  rw [Rd.bind_ok (lenBytes_reads (by rw [ofNat64_toNat (by omega)]) s)]
  unfold tailEnd
  rw [Rd.bind_ok (a := h.headerByte :: hb) (s' := s) (by rw [Rd.lift_apply]; dsimp only; rw [hrem, longFields_toBytes hv w1])]
  apply Rd.bind_isErr'
  rw [Rd.lift_apply, decrypt_eq hk]
  simp only [Bool.false_eq_true, if_false]
  have e3 : h.headerByte :: hb ++ (tl ++ token ++ lb) = [h.headerByte] ++ (hb ++ tl ++ token ++ lb) := by simp
  rw [e3]
  generalize packetNonce k.iv _ = nonce at ho ⊢
  generalize [h.headerByte] ++ (hb ++ tl ++ token ++ lb) ++ _ = ad at ho ⊢
  cases hd : internalDecryptAes128Gcm P k.key nonce ad (ct ++ tag) with
  | ok p =>
    obtain ⟨ct', tag', g1, g2, g3⟩ := internalDecrypt_ok.mp hd
    obtain ⟨rfl, rfl⟩ := List.append_inj' g1 (by omega)
    rw [ho] at g3
    cases g3
  | err e => rfl
  | panic w =>
    have := internalDecrypt_panic.mp (show (internalDecryptAes128Gcm P k.key nonce ad (ct ++ tag)).isPanic = true by rw [hd]; rfl)
    omega

/-- A packet with a packet number of fewer than four bytes, alone in its datagram: an error. -/
theorem initial_short_alone {P : Prims} (hP : PrimLaws P) {bp : Profile} {c : Connection} {k : Keys}
    (hk : c.remoteSecrets .initial = .ok (secretsOf P k)) (hkl : KeyLens k) (hack : (c.pnInfo .initial).largestRemoteAck = none)
    {h : LongPacketHeader} (hp : h.isProtected = false) {token pnB payload out : Bytes} {pn : U64}
    (hw : InitialWire P k h token pnB pn.toNat payload out) (h4 : pnB.length < 4) : (decodeNextPacket bp c (makeResultStream out)).1.isErr = true := by
  have hno := fun p s' => initial_short (bp := bp) (s := []) (s' := s') (p := p) hP hk hkl.2.1 hp hw
  rw [List.append_nil] at hno
  cases hd : decodeNextPacket bp c (makeResultStream out) with
  | mk o s' =>
    cases o with
    | ok p => have := hno p s' hd; simp only [List.length_nil] at this; omega
    | err e => rfl
    | panic w =>
      exfalso
      obtain ⟨hb, tl, lb, w1, w2, w3, w4, w5, w6⟩ := hw
      obtain ⟨m, ct, tag, rfl, f1, f2, f3, f4, f5⟩ := protected_facts hP hkl.2.1 w6
      have hl := w5.lt
      have hrem := protHeader_remove h m hp
      have hv : h.version.toNat ≠ 0 := kind_version (by rw [w2]; decide) (by rw [w2]; decide)
      have e1 := decodeNext_wire_initial (bp := bp) (c := c) w1 w2 m (tl ++ (token ++ (lb ++ (pnB.zipWith (· ^^^ ·) (maskList m) ++ (ct ++ tag))))) []
      simp only [List.append_assoc, List.append_nil] at hd e1
      rw [e1] at hd
      have hpan : ((do let res ← PacketInitial.fromStream bp c; pure (Packet.initial res) : Rd Packet)
        (makeResultStream ((h.headerByte ^^^ (m.m0 &&& 0x0f)) :: (hb ++ (tl ++ (token ++ (lb ++ (pnB.zipWith (· ^^^ ·) (maskList m) ++ (ct ++ tag))))))))).1.isPanic = true := by
        rw [hd]; rfl
      rcases Rd.bind_isPanic hpan with h1 | ⟨_, _, _, h1⟩
      · have hrun := initial_run (bp := bp) (c := c) w1 w2 w4 w5 m (makeResultStream (pnB.zipWith (· ^^^ ·) (maskList m) ++ (ct ++ tag)))
        rw [show makeResultStream ((h.headerByte ^^^ (m.m0 &&& 0x0f)) :: (hb ++ (tl ++ (token ++ (lb ++ (pnB.zipWith (· ^^^ ·) (maskList m) ++ (ct ++ tag))))))) =
          makeResultStream ((h.headerByte ^^^ (m.m0 &&& 0x0f)) :: (hb ++ tl ++ token ++ lb)) ++ makeResultStream (pnB.zipWith (· ^^^ ·) (maskList m) ++ (ct ++ tag)) by simp] at h1
        rw [hrun] at h1
        rcases Rd.bind_isPanic h1 with h2 | ⟨_, _, _, h2⟩
        · obtain ⟨pnP, smp, s1, m', g1, g2, g3, g4, g5⟩ := (tail_panic_iff hP hk hkl.1
            (first := fun m' => (h.headerByte ^^^ (m.m0 &&& 0x0f)) ^^^ (m'.m0 &&& 0x0f))
            (by intro m'; exact pnLength_eq.mpr ⟨rfl, rfl⟩)
            (by
              intro m'
              exact ⟨_, longFields_toBytes (h := { h with headerByte := (h.headerByte ^^^ (m.m0 &&& 0x0f)) ^^^ (m'.m0 &&& 0x0f), isProtected := false }) hv
                (unprot_fields w1)⟩) hack).mp h2
          rw [← List.append_nil (makeResultStream (pnB.zipWith _ _ ++ _))] at g1
          have hm' : m' = m := by
            have hz : (pnB.zipWith (· ^^^ ·) (maskList m)).length = pnB.length := by
              rw [List.length_zipWith]; simp only [maskList, List.length_cons, List.length_nil]; omega
            have e16 : ∀ i j (y : Bytes), List.take j (List.drop i (makeResultStream y)) = makeResultStream ((y.drop i).take j) := by
              intro i j y; simp [makeResultStream, List.map_take, List.map_drop]
            have hR : List.take 16 (List.drop 4 (makeResultStream (pnP ++ smp) ++ s1)) = makeResultStream smp := by
              rw [makeResultStream_append, List.append_assoc, List.drop_left' (by rw [makeResultStream_length, g2]), List.take_left' (by rw [makeResultStream_length, g3])]
            have hR' := g1 ▸ hR
            rw [List.append_nil, e16] at hR'
            have hdr4 : ∀ a b : Bytes, a.length ≤ 4 → (a ++ b).drop 4 = b.drop (4 - a.length) := by
              intro a b h
              rw [List.drop_append, List.drop_eq_nil_of_le h, List.nil_append]
            have := makeResultStream_inj hR'
            rw [hdr4 _ _ (by omega), hz] at this
            rw [List.append_assoc, hdr4 _ _ (by omega), this, g4] at f4
            exact Out.ok.inj f4
          subst hm'
          rw [BitVec.xor_assoc, BitVec.xor_self, BitVec.xor_zero, ofNat64_toNat (by omega)] at g5
          omega
        · cases h2
      · cases h1

end QuicSea
