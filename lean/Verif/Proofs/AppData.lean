import Verif.Proofs.Wire
/-
0-RTT and 1-RTT packets, with keys installed.
-/
namespace QuicSea
open Spec

theorem zeroRtt_reads {P : Prims} (hP : PrimLaws P) {bp : Profile} {c : Connection} {k : Keys}
    (hk : c.remoteSecrets .application = .ok (secretsOf P k)) (hiv : k.iv.length = 12) {h : LongPacketHeader} (hp : h.isProtected = false)
    {pnB payload out : Bytes} {pn : U64} {fs : List Frame} (hw : ZeroRttWire P k h pnB pn.toNat payload out) (h4 : pnB.length = 4)
    (hr : c.reconstructRemotePn bp .application pnB = .ok pn) (hf : (deserializeFrames (makeResultStream payload)).1 = .ok fs) :
    Reads (PacketZeroRtt.fromStream bp c) out
      { header := h, length := BitVec.ofNat 64 (pnB.length + payload.length + 16), packetNumber := pn, packetNumberBytes := pnB, packetPayload := fs } := by
  obtain ⟨hb, lb, w1, w2, w3, w5, w6⟩ := hw
  obtain ⟨m, ct, tag, rfl, f1, f2, f3, f4, f5⟩ := protected_facts hP hiv w6
  have hv : h.version.toNat ≠ 0 := kind_version (by rw [w2]; decide) (by rw [w2]; decide)
  have hrem := protHeader_remove h m hp
  rw [zeroRtt_eq]
  refine Reads.bind' (u8_reads (h.headerByte ^^^ (m.m0 &&& 0x0f))) (b2 := hb ++ (lb ++ (pnB.zipWith (· ^^^ ·) (maskList m) ++ (ct ++ tag)))) ?_ (by simp)
  refine Reads.bind (protHeader_reads w1 (by rw [w2]; rfl) (by rw [w2]; decide)) ?_
  have hl := w5.lt
  refine Reads.bind (varIntWithBytes_reads (v := BitVec.ofNat 64 (pnB.length + payload.length + 16)) (by rw [ofNat64_toNat (by omega)]; exact w5)) ?_
  refine Reads.bind' (tail_reads hk (first := h.headerByte) (hb := hb) (payload := payload) (fs := fs) (pn := pn) h4 f2 ?_ f4 ?_ ?_ ?_ hr hf)
    (b2 := []) ?_ (List.append_nil _).symm
  · rw [ofNat64_toNat (by omega), List.length_append]; omega
  · simpa using f5
  · show ((protHeader h m).removeProtection m).packetNumberLength = _
    rw [hrem]; exact pnLength_eq.mpr ⟨hp, by omega⟩
  · show ((protHeader h m).removeProtection m).toBytes = _
    rw [hrem]; exact longFields_toBytes hv w1
  · show Reads (Pure.pure _) _ _
    dsimp only
    rw [hrem]
    exact Reads.pure _
theorem zeroRtt_run {bp : Profile} {c : Connection} {h : LongPacketHeader} {hb lb : Bytes} {L : Nat}
    (w1 : LongFields h (h.headerByte :: hb)) (w2 : packetKind h.headerByte h.version = .zeroRtt) (w5 : IsVarInt lb L)
    (m : Mask) (s : Stream) :
    PacketZeroRtt.fromStream bp c (makeResultStream ((h.headerByte ^^^ (m.m0 &&& 0x0f)) :: (hb ++ lb)) ++ s) =
    (do
      let r ← tail bp c .application false (fun m' => ((protHeader h m).removeProtection m').packetNumberLength)
        (fun m' => ((protHeader h m).removeProtection m').toBytes) (lenBytes bp (BitVec.ofNat 64 L)) lb
      pure { header := (protHeader h m).removeProtection r.1, length := BitVec.ofNat 64 L, packetNumber := r.2.2.1, packetNumberBytes := r.2.1, packetPayload := r.2.2.2 } : Rd PacketZeroRtt) s := by
  have hl := w5.lt
  rw [zeroRtt_eq]
  rw [show makeResultStream ((h.headerByte ^^^ (m.m0 &&& 0x0f)) :: (hb ++ lb)) ++ s =
    makeResultStream [h.headerByte ^^^ (m.m0 &&& 0x0f)] ++ (makeResultStream hb ++ (makeResultStream lb ++ s)) by simp]
  rw [Rd.bind_ok (u8_reads (h.headerByte ^^^ (m.m0 &&& 0x0f)) _)]
  rw [Rd.bind_ok (protHeader_reads w1 (by rw [w2]; rfl) (by rw [w2]; decide) _)]
  rw [Rd.bind_ok (varIntWithBytes_reads (v := BitVec.ofNat 64 L) (by rw [ofNat64_toNat (by omega)]; exact w5) _)]
theorem decodeNext_wire_zeroRtt {bp : Profile} {c : Connection} {h : LongPacketHeader} {hb : Bytes} (w1 : LongFields h (h.headerByte :: hb))
    (w2 : packetKind h.headerByte h.version = .zeroRtt) (m : Mask) (r : Bytes) (s : Stream) :
    decodeNextPacket bp c (makeResultStream ((h.headerByte ^^^ (m.m0 &&& 0x0f)) :: (hb ++ r)) ++ s) =
      (do let res ← PacketZeroRtt.fromStream bp c; pure (Packet.zeroRtt res) : Rd Packet)
        (makeResultStream ((h.headerByte ^^^ (m.m0 &&& 0x0f)) :: (hb ++ r)) ++ s) := by
  rw [decodeNext_long (nextHeader_wire w1 (by rw [w2]; rfl) (by rw [w2]; decide) m r s)]
  rw [show packetKind (protHeader h m).headerByte (protHeader h m).version = .zeroRtt from (kind_xor _ _ _).trans w2]
  rfl
theorem decodeNext_zeroRtt_reads {P : Prims} (hP : PrimLaws P) {bp : Profile} {c : Connection} {k : Keys}
    (hk : c.remoteSecrets .application = .ok (secretsOf P k)) (hiv : k.iv.length = 12) {h : LongPacketHeader} (hp : h.isProtected = false)
    {pnB payload out : Bytes} {pn : U64} {fs : List Frame} (hw : ZeroRttWire P k h pnB pn.toNat payload out) (h4 : pnB.length = 4)
    (hr : c.reconstructRemotePn bp .application pnB = .ok pn) (hf : (deserializeFrames (makeResultStream payload)).1 = .ok fs) :
    Reads (decodeNextPacket bp c) out
      (.zeroRtt { header := h, length := BitVec.ofNat 64 (pnB.length + payload.length + 16), packetNumber := pn, packetNumberBytes := pnB, packetPayload := fs }) := by
  intro s
  have hrd := zeroRtt_reads hP hk hiv hp hw h4 hr hf s
  obtain ⟨hb, lb, w1, w2, w3, w5, w6⟩ := hw
  obtain ⟨m, ct, tag, rfl, f1, f2, f3, f4, f5⟩ := protected_facts hP hiv w6
  simp only [List.append_assoc] at hrd ⊢
  rw [decodeNext_wire_zeroRtt w1 w2, Rd.bind_ok hrd]
  rfl
theorem zeroRtt_short {P : Prims} (hP : PrimLaws P) {bp : Profile} {c : Connection} {k : Keys}
    (hk : c.remoteSecrets .application = .ok (secretsOf P k)) (hiv : k.iv.length = 12) {h : LongPacketHeader} (hp : h.isProtected = false)
    {pnB payload out : Bytes} {pn : U64} (hw : ZeroRttWire P k h pnB pn.toNat payload out) {s s' : Stream} {p : Packet}
    (hd : decodeNextPacket bp c (makeResultStream out ++ s) = (.ok p, s')) : s.length = (4 - pnB.length) + s'.length := by
  obtain ⟨hb, lb, w1, w2, w3, w5, w6⟩ := hw
  obtain ⟨m, ct, tag, rfl, f1, f2, f3, f4, f5⟩ := protected_facts hP hiv w6
  have hl := w5.lt
  have hrem := protHeader_remove h m hp
  have hout : makeResultStream ((h.headerByte ^^^ (m.m0 &&& 0x0f)) :: (hb ++ lb ++ pnB.zipWith (· ^^^ ·) (maskList m) ++ ct ++ tag)) ++ s =
      makeResultStream ((h.headerByte ^^^ (m.m0 &&& 0x0f)) :: (hb ++ lb)) ++ (makeResultStream (pnB.zipWith (· ^^^ ·) (maskList m) ++ (ct ++ tag)) ++ s) := by simp
  have e1 := decodeNext_wire_zeroRtt (bp := bp) (c := c) w1 w2 m (lb ++ (pnB.zipWith (· ^^^ ·) (maskList m) ++ (ct ++ tag))) s
  simp only [List.append_assoc] at hd
  rw [e1] at hd
  obtain ⟨q, s2, e2, e3⟩ := Rd.bind_eq_ok hd
  cases e3
  simp only [List.append_assoc] at hout
  rw [hout] at e2
  have hrun := zeroRtt_run (bp := bp) (c := c) w1 w2 w5 m (makeResultStream (pnB.zipWith (· ^^^ ·) (maskList m) ++ (ct ++ tag)) ++ s)
  rw [hrun] at e2
  obtain ⟨r, s3, e4, e5⟩ := Rd.bind_eq_ok e2
  cases e5
  refine tail_short hk (by omega) (by simp only [List.length_append]; omega) (by rw [ofNat64_toNat (by omega), List.length_append]; omega) f4 ?_ e4
  rw [hrem]
  exact pnLength_eq.mpr ⟨hp, w3.symm⟩

/-! ### 1-RTT -/

/-- A short header as it stands on the wire. -/
def protShort (h : ShortPacketHeader) (m : Mask) : ShortPacketHeader := { h with headerByte := h.headerByte ^^^ (m.m0 &&& 0x1f), isProtected := true }
theorem protShort_remove (h : ShortPacketHeader) (m : Mask) (hp : h.isProtected = false) : (protShort h m).removeProtection m = h := by
  unfold protShort ShortPacketHeader.removeProtection
  simp only [if_true, BitVec.xor_assoc, BitVec.xor_self, BitVec.xor_zero]
  cases h; simp_all
theorem protShort_fields {h : ShortPacketHeader} {m : Mask} {hb : Bytes} (hf : ShortFields h (h.headerByte :: hb)) :
    ShortFields (protShort h m) ((protShort h m).headerByte :: hb) := by
  obtain ⟨d, e, r⟩ := hf
  refine ⟨d, ?_, r⟩
  simp only [List.singleton_append, List.cons.injEq, true_and] at e
  rw [e]
  simp [protShort]
theorem protShort_short (h : ShortPacketHeader) (m : Mask) (hs : h.headerByte.toNat < 128) : (protShort h m).headerByte.toNat < 128 := by
  have k : ∀ y : U8, y.toNat < 128 ↔ y.getLsbD 7 = false := by decide +kernel
  rw [k] at hs ⊢
  show (h.headerByte ^^^ (m.m0 &&& 0x1f)).getLsbD 7 = false
  rw [BitVec.getLsbD_xor, BitVec.getLsbD_and, hs]
  simp
theorem short_pnLength {h : ShortPacketHeader} (hp : h.isProtected = false) : h.packetNumberLength = .ok (h.headerByte.toNat % 4 + 1) := by
  have k : ∀ b : U8, (b &&& 0x03).toNat = b.toNat % 4 := by decide +kernel
  unfold ShortPacketHeader.packetNumberLength
  rw [hp, k]; rfl
theorem short_toBytes {h : ShortPacketHeader} {hb : Bytes} (hf : ShortFields h (h.headerByte :: hb)) : h.toBytes = .ok (h.headerByte :: hb) := by
  obtain ⟨d, e, l8, v8⟩ := hf
  simp only [List.singleton_append, List.cons.injEq, true_and] at e
  subst e
  have : h.destinationConnectionId.toVarBytes 8 = .ok hb := by
    obtain ⟨b, e, l, v⟩ := toVarBytes_spec h.destinationConnectionId 8 (by decide)
    rw [e]
    congr 1
    refine beNat_inj (by omega) ?_
    rw [v, ← v8]
    refine Nat.mod_eq_of_lt ?_
    have := beNat_lt hb
    rw [l8] at this
    exact this
  unfold ShortPacketHeader.toBytes
  rw [this]
  rfl

theorem oneRtt_run {bp : Profile} {c : Connection} {h : ShortPacketHeader} {hb : Bytes} (w1 : ShortFields h (h.headerByte :: hb))
    (w2 : h.headerByte.toNat < 128) (m : Mask) (s : Stream) :
    decodeNextPacket bp c (makeResultStream ((h.headerByte ^^^ (m.m0 &&& 0x1f)) :: hb) ++ s) =
    (do
      let r ← tail bp c .application false (fun m' => ((protShort h m).removeProtection m').packetNumberLength)
        (fun m' => ((protShort h m).removeProtection m').toBytes) (fun _ => allBytesFromStream) []
      pure (Packet.oneRtt { header := (protShort h m).removeProtection r.1, packetNumber := r.2.2.1, packetNumberBytes := r.2.1, packetPayload := r.2.2.2 }) : Rd Packet) s := by
  have hf := protShort_fields (m := m) w1
  have hn : nextHeaderFromStream (makeResultStream ((h.headerByte ^^^ (m.m0 &&& 0x1f)) :: hb) ++ s) = (.ok (.short (protShort h m)), s) :=
    nextHeader_short_iff.mpr ⟨_, rfl, hf, protShort_short h m w2, rfl⟩
  rw [decodeNext_short hn, oneRtt_eq]
  rw [show makeResultStream ((h.headerByte ^^^ (m.m0 &&& 0x1f)) :: hb) ++ s = makeResultStream [h.headerByte ^^^ (m.m0 &&& 0x1f)] ++ (makeResultStream hb ++ s) by simp]
  rw [Rd.bind_assoc, Rd.bind_ok (u8_reads (h.headerByte ^^^ (m.m0 &&& 0x1f)) _), Rd.bind_assoc]
  have hsr : ShortPacketHeader.fromStream (h.headerByte ^^^ (m.m0 &&& 0x1f)) (makeResultStream hb ++ s) = (.ok (protShort h m), s) := short_reads hf rfl s
  rw [Rd.bind_ok hsr, Rd.bind_assoc]
  rfl

theorem oneRtt_four {P : Prims} (hP : PrimLaws P) {bp : Profile} {c : Connection} {k : Keys}
    (hk : c.remoteSecrets .application = .ok (secretsOf P k)) (hiv : k.iv.length = 12) {h : ShortPacketHeader} (hp : h.isProtected = false)
    {pnB payload out : Bytes} {pn : U64} {fs : List Frame} (hw : OneRttWire P k h pnB pn.toNat payload out) (h4 : pnB.length = 4)
    (hr : c.reconstructRemotePn bp .application pnB = .ok pn) (hf : (deserializeFrames (makeResultStream payload)).1 = .ok fs) :
    decodeNextPacket bp c (makeResultStream out) =
      (.ok (.oneRtt { header := h, packetNumber := pn, packetNumberBytes := pnB, packetPayload := fs }), []) := by
  obtain ⟨hb, w1, w2, w3, w6⟩ := hw
  obtain ⟨m, ct, tag, rfl, f1, f2, f3, f4, f5⟩ := protected_facts hP hiv w6
  have hrem := protShort_remove h m hp
  have hx : (pnB.zipWith (· ^^^ ·) (maskList m)).zipWith (· ^^^ ·) (maskList m) = pnB := zipWith_xor_twice _ _ (by simp [maskList, h4])
  have hsm : ((pnB ++ ct ++ tag).drop 4).take 16 = (ct ++ tag).take 16 := by
    rw [List.append_assoc, List.drop_left' h4]
  have hlt : ((ct ++ tag).take 16).length = 16 := by rw [List.length_take, List.length_append]; omega
  rw [show makeResultStream ((h.headerByte ^^^ (m.m0 &&& 0x1f)) :: (hb ++ pnB.zipWith (· ^^^ ·) (maskList m) ++ ct ++ tag)) =
    makeResultStream ((h.headerByte ^^^ (m.m0 &&& 0x1f)) :: hb) ++ (makeResultStream (pnB.zipWith (· ^^^ ·) (maskList m)) ++ makeResultStream (ct ++ tag)) by simp]
  rw [oneRtt_run w1 w2, Rd.bind_apply]
  rw [tail_eval hk (n := 4) (m := m) (pn := pn) (smp := (ct ++ tag).take 16) (s1 := makeResultStream ((ct ++ tag).drop 16))
    (by simp [maskList, h4]) (by rw [← makeResultStream_append, List.take_append_drop]) hlt
    (by rw [← hsm]; exact f4) (by rw [hrem, short_pnLength hp]; congr 1; omega) (by omega)
    (by rw [hx, List.take_of_length_le (by omega), ite_self]; exact hr)]
  rw [hx, List.take_of_length_le (by omega), Rd.bind_ok (allBytes_run (ct ++ tag))]
  rw [tailEnd_run hk (by rw [hrem]; exact short_toBytes w1) f2 (by simpa using f5) hf]
  dsimp only
  rw [hrem]
  rfl

/-- With a packet number of fewer than four bytes, the start of the ciphertext is lost: what is opened is the rest. -/
theorem oneRtt_short {P : Prims} (hP : PrimLaws P) {bp : Profile} {c : Connection} {k : Keys}
    (hk : c.remoteSecrets .application = .ok (secretsOf P k)) (hiv : k.iv.length = 12) (ha : (c.pnInfo .application).largestRemoteAck = none)
    {h : ShortPacketHeader} (hp : h.isProtected = false)
    {pnB payload out : Bytes} {pn : U64} (hw : OneRttWire P k h pnB pn.toNat payload out) (hv : beNat pnB = pn.toNat)
    {s' : Stream} {q : Packet} (hd : decodeNextPacket bp c (makeResultStream out) = (.ok q, s')) :
    ∃ hb nb ct tag plain, ShortFields h (h.headerByte :: hb) ∧ nb.length = 8 ∧ beNat nb = pn.toNat ∧
      P.gcmSeal k.key (rfcNonce k.iv nb) (h.headerByte :: (hb ++ pnB)) payload = some (ct, tag) ∧
      P.gcmOpen k.key (rfcNonce k.iv nb) (h.headerByte :: (hb ++ pnB)) (ct.drop (4 - pnB.length)) tag = some plain := by
  obtain ⟨hb, w1, w2, w3, nb, ct, tag, m0, m1, m2, m3, m4, r, p1, p2, p3, p4, p5, rfl⟩ := hw
  obtain ⟨l1, l2⟩ := hP.seal_length _ _ _ _ _ _ p3
  have hnb : nb = toBeBytes 8 pn := beNat_inj (by rw [p1, toBeBytes_length]) (by rw [p2, beNat_toBeBytes' 8 pn])
  have hm : hpMaskAes128Ecb P k.hp (((pnB ++ ct ++ tag).drop 4).take 16) = .ok ⟨m0, m1, m2, m3, m4⟩ := hpMask_ok.mpr ⟨r, p5⟩
  have hml : [m1, m2, m3, m4] = maskList ⟨m0, m1, m2, m3, m4⟩ := rfl
  have hm0 : m0 = (⟨m0, m1, m2, m3, m4⟩ : Mask).m0 := rfl
  rw [hml, hm0] at hd
  generalize (⟨m0, m1, m2, m3, m4⟩ : Mask) = m at hm hd
  have hrem := protShort_remove h m hp
  rw [show makeResultStream ([h.headerByte ^^^ (m.m0 &&& 0x1f)] ++ hb ++ pnB.zipWith (· ^^^ ·) (maskList m) ++ ct ++ tag) =
    makeResultStream ((h.headerByte ^^^ (m.m0 &&& 0x1f)) :: hb) ++ (makeResultStream (pnB.zipWith (· ^^^ ·) (maskList m) ++ (ct ++ tag))) by simp] at hd
  rw [oneRtt_run w1 w2] at hd
  obtain ⟨⟨m', pnB', pn', fs⟩, s1, e1, e2⟩ := Rd.bind_eq_ok hd
  have hz : (pnB.zipWith (· ^^^ ·) (maskList m)).length = pnB.length := by
    rw [List.length_zipWith]; simp only [maskList, List.length_cons, List.length_nil]; omega
  have h4 : pnB.length ≤ 4 := by omega
  simp only [List.length_append] at p4
  have hdr4 : ∀ a b : Bytes, a.length ≤ 4 → (a ++ b).drop 4 = b.drop (4 - a.length) := by
    intro a b h
    rw [List.drop_append, List.drop_eq_nil_of_le h, List.nil_append]
  have hc : 4 - pnB.length ≤ ct.length := by omega
  -- the stream as the code cuts it
  have hcut : pnB.zipWith (· ^^^ ·) (maskList m) ++ (ct ++ tag) =
      (pnB.zipWith (· ^^^ ·) (maskList m) ++ ct.take (4 - pnB.length)) ++ (ct.drop (4 - pnB.length) ++ tag) := by
    rw [List.append_assoc, ← List.append_assoc (ct.take _), List.take_append_drop]
  have hsm : ((pnB ++ ct ++ tag).drop 4).take 16 = (ct.drop (4 - pnB.length) ++ tag).take 16 := by
    rw [List.append_assoc, hdr4 _ _ h4, List.drop_append_of_le_length hc]
  rw [hsm] at hm
  have hxx : ∀ y : Bytes, ((pnB.zipWith (· ^^^ ·) (maskList m) ++ y).zipWith (· ^^^ ·) (maskList m)).take pnB.length = pnB := by
    intro y
    rw [List.take_zipWith, List.take_left' hz]
    refine (List.ext_getElem? fun i => ?_).trans (zipWith_xor_twice pnB (maskList m) (by simpa [maskList] using h4))
    simp only [List.getElem?_zipWith, List.getElem?_take]
    by_cases hi : i < pnB.length
    · rw [if_pos hi]
    · rw [if_neg hi, List.getElem?_eq_none (l := pnB) (by omega)]
  have hack := reconstruct_none bp c .application pnB h4 ha
  have hpn : BitVec.ofNat 64 (beNat pnB) = pn := by
    rw [hv]; exact BitVec.ofNat_toNat 64 pn |>.trans (BitVec.setWidth_eq pn)
  rw [hpn] at hack
  rw [hcut, makeResultStream_append (pnB.zipWith _ _ ++ _)] at e1
  rw [tail_eval hk (n := pnB.length) (m := m) (pn := pn) (smp := (ct.drop (4 - pnB.length) ++ tag).take 16)
    (s1 := makeResultStream ((ct.drop (4 - pnB.length) ++ tag).drop 16))
    (by rw [List.length_append, hz, List.length_take]; omega) (by rw [← makeResultStream_append, List.take_append_drop])
    (by rw [List.length_take, List.length_append]; omega) hm (by rw [hrem, short_pnLength hp, w3]) h4
    (by simp only [Bool.false_eq_true, if_false]; rw [hxx]; exact hack)] at e1
  rw [hxx, Rd.bind_ok (allBytes_run _)] at e1
  obtain ⟨ct', tag', hb', pl, fs', t1, t2, t3, t4, t5, t6, t7⟩ := tailEnd_inv hk e1
  rw [hrem, short_toBytes w1] at t1
  cases t1
  obtain ⟨rfl, rfl⟩ := List.append_inj' t2 (by omega)
  refine ⟨hb, nb, ct, tag, pl, w1, p1, p2, by simpa using p3, ?_⟩
  rw [hnb, ← packetNonce_eq k.iv pn (by omega)]
  simpa using t4
end QuicSea
