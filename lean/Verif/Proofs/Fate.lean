import Verif.Proofs.Wire
/-
What becomes of a genuine packet whose frames the frame parser rejects.
-/
namespace QuicSea
open Spec

/-- Fails on `bs` followed by anything, with this error, having consumed exactly `bs`. -/
def FailsAfter (m : Rd α) (bs : Bytes) (e : Error) : Prop := ∀ s : Stream, m (makeResultStream bs ++ s) = (.err e, s)

theorem FailsAfter.bind {m : Rd α} {f : α → Rd β} {b1 b2 a e} (h1 : Reads m b1 a) (h2 : FailsAfter (f a) b2 e) :
    FailsAfter (m >>= f) (b1 ++ b2) e := by
  intro s
  rw [makeResultStream_append, List.append_assoc, Rd.bind_ok (h1 _), h2]
theorem FailsAfter.bind' {m : Rd α} {f : α → Rd β} {b1 b2 bs a e} (h1 : Reads m b1 a) (h2 : FailsAfter (f a) b2 e) (h : bs = b1 ++ b2) :
    FailsAfter (m >>= f) bs e := h ▸ .bind h1 h2
theorem FailsAfter.first {m : Rd α} {f : α → Rd β} {bs e} (h : FailsAfter m bs e) : FailsAfter (m >>= f) bs e := by
  intro s
  rw [Rd.bind_apply, h s]

theorem tailEnd_fails {P : Prims} {c : Connection} {sp : PnSpace} {hdr : Mask → Out Bytes} {mid : Bytes} {m : Mask} {pnB : Bytes} {pn : U64}
    {k : Keys} (hk : c.remoteSecrets sp = .ok (secretsOf P k)) {ct tag hb pl : Bytes} {e : Error}
    (hh : hdr m = .ok hb) (ht : tag.length = 16) (ho : P.gcmOpen k.key (packetNonce k.iv pn) (hb ++ mid ++ pnB) ct tag = some pl)
    (hf : (deserializeFrames (makeResultStream pl)).1 = .err e) (s : Stream) :
    tailEnd c sp hdr mid m pnB pn (ct ++ tag) s = (.err e, s) := by
  unfold tailEnd
  rw [Rd.bind_ok (a := hb) (s' := s) (by rw [Rd.lift_apply, hh])]
  rw [Rd.bind_ok (a := pl) (s' := s) (by rw [Rd.lift_apply, decrypt_eq hk, internalDecrypt_ok.mpr ⟨ct, tag, rfl, ht, ho⟩])]
  rw [Rd.bind_apply, Rd.lift_apply, hf]

theorem tail_fails {P : Prims} {bp : Profile} {c : Connection} {sp : PnSpace} {whole : Bool} {lenOf : Mask → Out Nat}
    {hdr : Mask → Out Bytes} {L : U64} {mid : Bytes} {k : Keys} (hk : c.remoteSecrets sp = .ok (secretsOf P k))
    {first : U8} {hb pnB ct tag payload : Bytes} {m : Mask} {pn : U64} {e : Error}
    (h4 : pnB.length = 4) (ht : tag.length = 16) (hL : L.toNat = 4 + (ct ++ tag).length)
    (hm : hpMaskAes128Ecb P k.hp (((pnB ++ ct ++ tag).drop 4).take 16) = .ok m)
    (ho : P.gcmOpen k.key (packetNonce k.iv pn) (first :: (hb ++ mid) ++ pnB) ct tag = some payload)
    (hlen : lenOf m = .ok 4) (hhdr : hdr m = .ok (first :: hb)) (hr : c.reconstructRemotePn bp sp pnB = .ok pn)
    (hf : (deserializeFrames (makeResultStream payload)).1 = .err e) :
    FailsAfter (tail bp c sp whole lenOf hdr (lenBytes bp L) mid) (pnB.zipWith (· ^^^ ·) (maskList m) ++ (ct ++ tag)) e := by
  intro s
  have hx : (pnB.zipWith (· ^^^ ·) (maskList m)).zipWith (· ^^^ ·) (maskList m) = pnB := zipWith_xor_twice _ _ (by simp [maskList, h4])
  have hsm : ((pnB ++ ct ++ tag).drop 4).take 16 = (ct ++ tag).take 16 := by
    rw [List.append_assoc, List.drop_left' h4]
  have hlt : ((ct ++ tag).take 16).length = 16 := by rw [List.length_take, List.length_append]; omega
  rw [makeResultStream_append, List.append_assoc]
  rw [tail_eval hk (n := 4) (m := m) (pn := pn) (smp := (ct ++ tag).take 16) (s1 := makeResultStream ((ct ++ tag).drop 16) ++ s)
    (by simp [maskList, h4]) (by rw [← List.append_assoc, ← makeResultStream_append, List.take_append_drop]) hlt
    (by rw [← hsm]; exact hm) hlen (by omega) (by rw [hx, List.take_of_length_le (by omega), ite_self]; exact hr)]
  rw [hx, List.take_of_length_le (by omega), Rd.bind_ok (lenBytes_reads hL s)]
  exact tailEnd_fails hk hhdr ht (by simpa using ho) hf s

theorem initial_fails {P : Prims} (hP : PrimLaws P) {bp : Profile} {c : Connection} {k : Keys}
    (hk : c.remoteSecrets .initial = .ok (secretsOf P k)) (hiv : k.iv.length = 12) {h : LongPacketHeader} (hp : h.isProtected = false)
    {token pnB payload out : Bytes} {pn : U64} {e : Error} (hw : InitialWire P k h token pnB pn.toNat payload out) (h4 : pnB.length = 4)
    (hr : c.reconstructRemotePn bp .initial pnB = .ok pn) (hf : (deserializeFrames (makeResultStream payload)).1 = .err e) :
    FailsAfter (PacketInitial.fromStream bp c) out e := by
  obtain ⟨hb, tl, lb, w1, w2, w3, w4, w5, w6⟩ := hw
  obtain ⟨m, ct, tag, rfl, f1, f2, f3, f4, f5⟩ := protected_facts hP hiv w6
  have hv : h.version.toNat ≠ 0 := kind_version (by rw [w2]; decide) (by rw [w2]; decide)
  have hrem := protHeader_remove h m hp
  rw [initial_eq]
  refine FailsAfter.bind' (u8_reads (h.headerByte ^^^ (m.m0 &&& 0x0f))) (b2 := hb ++ (tl ++ (token ++ (lb ++ (pnB.zipWith (· ^^^ ·) (maskList m) ++ (ct ++ tag)))))) ?_ (by simp)
  refine FailsAfter.bind (protHeader_reads w1 (by rw [w2]; rfl) (by rw [w2]; decide)) ?_
  have ht := w4.lt
  have hl := w5.lt
  refine FailsAfter.bind (varIntWithBytes_reads (v := BitVec.ofNat 64 token.length) (by rw [ofNat64_toNat (by omega)]; exact w4)) ?_
  refine FailsAfter.bind (varBytes_reads' (by rw [ofNat64_toNat (by omega)])) ?_
  refine FailsAfter.bind (varIntWithBytes_reads (v := BitVec.ofNat 64 (pnB.length + payload.length + 16)) (by rw [ofNat64_toNat (by omega)]; exact w5)) ?_
  refine FailsAfter.first (tail_fails hk (first := h.headerByte) (hb := hb) (payload := payload) (e := e) (pn := pn) h4 f2 ?_ f4 ?_ ?_ ?_ hr hf)
  · rw [ofNat64_toNat (by omega), List.length_append]; omega
  · simpa using f5
  · show ((protHeader h m).removeProtection m).packetNumberLength = _
    rw [hrem]; exact pnLength_eq.mpr ⟨hp, by omega⟩
  · show ((protHeader h m).removeProtection m).toBytes = _
    rw [hrem]; exact longFields_toBytes hv w1

theorem handshake_fails {P : Prims} (hP : PrimLaws P) {bp : Profile} {c : Connection} {k : Keys}
    (hk : c.remoteSecrets .handshake = .ok (secretsOf P k)) (hiv : k.iv.length = 12) {h : LongPacketHeader} (hp : h.isProtected = false)
    {pnB payload out : Bytes} {pn : U64} {e : Error} (hw : HandshakeWire P k h pnB pn.toNat payload out) (h4 : pnB.length = 4)
    (hr : c.reconstructRemotePn bp .handshake pnB = .ok pn) (hf : (deserializeFrames (makeResultStream payload)).1 = .err e) :
    FailsAfter (PacketHandshake.fromStream bp c) out e := by
  obtain ⟨hb, lb, w1, w2, w3, w5, w6⟩ := hw
  obtain ⟨m, ct, tag, rfl, f1, f2, f3, f4, f5⟩ := protected_facts hP hiv w6
  have hv : h.version.toNat ≠ 0 := kind_version (by rw [w2]; decide) (by rw [w2]; decide)
  have hrem := protHeader_remove h m hp
  rw [handshake_eq]
  refine FailsAfter.bind' (u8_reads (h.headerByte ^^^ (m.m0 &&& 0x0f))) (b2 := hb ++ (lb ++ (pnB.zipWith (· ^^^ ·) (maskList m) ++ (ct ++ tag)))) ?_ (by simp)
  refine FailsAfter.bind (protHeader_reads w1 (by rw [w2]; rfl) (by rw [w2]; decide)) ?_
  have hl := w5.lt
  refine FailsAfter.bind (varIntWithBytes_reads (v := BitVec.ofNat 64 (pnB.length + payload.length + 16)) (by rw [ofNat64_toNat (by omega)]; exact w5)) ?_
  refine FailsAfter.first (tail_fails hk (first := h.headerByte) (hb := hb) (payload := payload) (e := e) (pn := pn) h4 f2 ?_ f4 ?_ ?_ ?_ hr hf)
  · rw [ofNat64_toNat (by omega), List.length_append]; omega
  · simpa using f5
  · show ((protHeader h m).removeProtection m).packetNumberLength = _
    rw [hrem]; exact pnLength_eq.mpr ⟨hp, by omega⟩
  · show ((protHeader h m).removeProtection m).toBytes = _
    rw [hrem]; exact longFields_toBytes hv w1

theorem decodeNext_initial_fails {P : Prims} (hP : PrimLaws P) {bp : Profile} {c : Connection} {k : Keys}
    (hk : c.remoteSecrets .initial = .ok (secretsOf P k)) (hiv : k.iv.length = 12) {h : LongPacketHeader} (hp : h.isProtected = false)
    {token pnB payload out : Bytes} {pn : U64} {e : Error} (hw : InitialWire P k h token pnB pn.toNat payload out) (h4 : pnB.length = 4)
    (hr : c.reconstructRemotePn bp .initial pnB = .ok pn) (hf : (deserializeFrames (makeResultStream payload)).1 = .err e) :
    FailsAfter (decodeNextPacket bp c) out e := by
  intro s
  have hrd := initial_fails hP hk hiv hp hw h4 hr hf s
  obtain ⟨hb, tl, lb, w1, w2, w3, w4, w5, w6⟩ := hw
  obtain ⟨m, ct, tag, rfl, f1, f2, f3, f4, f5⟩ := protected_facts hP hiv w6
  simp only [List.append_assoc] at hrd ⊢
  rw [decodeNext_wire_initial w1 w2, Rd.bind_apply, hrd]
theorem decodeNext_handshake_fails {P : Prims} (hP : PrimLaws P) {bp : Profile} {c : Connection} {k : Keys}
    (hk : c.remoteSecrets .handshake = .ok (secretsOf P k)) (hiv : k.iv.length = 12) {h : LongPacketHeader} (hp : h.isProtected = false)
    {pnB payload out : Bytes} {pn : U64} {e : Error} (hw : HandshakeWire P k h pnB pn.toNat payload out) (h4 : pnB.length = 4)
    (hr : c.reconstructRemotePn bp .handshake pnB = .ok pn) (hf : (deserializeFrames (makeResultStream payload)).1 = .err e) :
    FailsAfter (decodeNextPacket bp c) out e := by
  intro s
  have hrd := handshake_fails hP hk hiv hp hw h4 hr hf s
  obtain ⟨hb, lb, w1, w2, w3, w5, w6⟩ := hw
  obtain ⟨m, ct, tag, rfl, f1, f2, f3, f4, f5⟩ := protected_facts hP hiv w6
  simp only [List.append_assoc] at hrd ⊢
  rw [decodeNext_wire_handshake w1 w2, Rd.bind_apply, hrd]

end QuicSea
