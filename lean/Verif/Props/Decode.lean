import Verif.Props.Packet
/-
C32-C35, C38, C53: decoding packets.
-/
namespace QuicSea
open Spec

/-- A long header, with everything that follows it. -/
def LongAt (s : Stream) (h : LongPacketHeader) (rest : Stream) : Prop :=
  ∃ bs, s = makeResultStream bs ++ rest ∧ LongFields h bs ∧ 128 ≤ h.headerByte.toNat
/-- A short header, with everything that follows it. -/
def ShortAt (s : Stream) (h : ShortPacketHeader) (rest : Stream) : Prop :=
  ∃ bs, s = makeResultStream bs ++ rest ∧ ShortFields h bs ∧ h.headerByte.toNat < 128

theorem longAt_next {s rest : Stream} {h : LongPacketHeader} (hl : LongAt s h rest) :
    nextHeaderFromStream s = (.ok (.long { h with isProtected := protectable (packetKind h.headerByte h.version) }), rest) := by
  obtain ⟨bs, h1, h2, h3⟩ := hl
  exact nextHeader_long_iff.mpr ⟨bs, h1, h2, h3, rfl⟩
theorem next_longAt {s rest : Stream} {h : LongPacketHeader} (hl : nextHeaderFromStream s = (.ok (.long h), rest)) : LongAt s h rest := by
  obtain ⟨bs, h1, h2, h3, _⟩ := nextHeader_long_iff.mp hl
  exact ⟨bs, h1, h2, h3⟩
theorem shortAt_next {s rest : Stream} {h : ShortPacketHeader} (hl : ShortAt s h rest) :
    nextHeaderFromStream s = (.ok (.short { h with isProtected := true }), rest) := by
  obtain ⟨bs, h1, h2, h3⟩ := hl
  exact nextHeader_short_iff.mpr ⟨bs, h1, h2, h3, rfl⟩
theorem next_shortAt {s rest : Stream} {h : ShortPacketHeader} (hl : nextHeaderFromStream s = (.ok (.short h), rest)) : ShortAt s h rest := by
  obtain ⟨bs, h1, h2, h3, _⟩ := nextHeader_short_iff.mp hl
  exact ⟨bs, h1, h2, h3⟩

theorem longAt_same {s r r' : Stream} {h h' : LongPacketHeader} (a : LongAt s h r) (b : LongAt s h' r') :
    h.headerByte = h'.headerByte ∧ h.version = h'.version ∧ r = r' := by
  have e := longAt_next a
  rw [longAt_next b] at e
  obtain ⟨e1, e2⟩ := Prod.mk.inj e
  have e3 := PacketHeader.long.inj (Out.ok.inj e1)
  exact ⟨(congrArg LongPacketHeader.headerByte e3).symm, (congrArg LongPacketHeader.version e3).symm, e2.symm⟩
theorem toVarBytes_ok {x : U160} {n : Nat} {bs : Bytes} (h : x.toVarBytes n = .ok bs) : bs.length = n ∧ beNat bs = cidVal x % 256 ^ n := by
  by_cases hn : n ≤ 20
  · obtain ⟨b, h1, h2, h3⟩ := toVarBytes_spec x n hn
    rw [h] at h1
    cases h1
    exact ⟨h2, h3⟩
  · have := toVarBytes_panic x n (by omega)
    rw [h] at this
    cases this

/-! ## C32 -/

/-- What C32 asks: on every reachable connection, every RFC Initial packet under its receive keys is decoded, whatever the packet number length. -/
def C32For (P : Prims) : Prop :=
  ∀ (bp : Profile) (c : Connection) (_ : Connection.Reachable P bp c) (k : Keys)
    (_ : c.remoteSecrets .initial = .ok (secretsOf P k)) (h : LongPacketHeader) (_ : h.isProtected = false) (token pnB payload out : Bytes) (pn : U64)
    (fs : List Frame) (_ : InitialWire P k h token pnB pn.toNat payload out) (_ : beNat pnB = pn.toNat)
    (_ : (deserializeFrames (makeResultStream payload)).1 = .ok fs) (s : Stream),
    decodeNextPacket bp c (makeResultStream out ++ s) =
      (.ok (.initial { header := h, token, packetNumber := pn, packetNumberBytes := pnB, packetPayload := fs }), s)
/-- The claim, for all algorithms that obey the laws. -/
def C32Statement : Prop := ∀ P, PrimLaws P → C32For P

theorem reachable_iv {P : Prims} (hP : PrimLaws P) {bp : Profile} {c : Connection} (hr : Connection.Reachable P bp c) {k : Keys}
    (hk : c.remoteSecrets .initial = .ok (secretsOf P k)) : KeyLens k := by
  obtain ⟨⟨kl, kr, l1, l2, m1, m2⟩, _⟩ := reachable_keys hP hr
  rw [hk] at m2
  have e : secretsOf P k = secretsOf P kr := Out.ok.inj m2
  have e1 : k.hp = kr.hp := congrArg Secrets.hp e
  have e2 : k.iv = kr.iv := Option.some.inj (congrArg Secrets.iv e)
  have e3 : k.key = kr.key := congrArg Secrets.key e
  unfold KeyLens
  rw [e1, e2, e3]
  exact l2

/-- C32 for four-byte packet numbers, whatever follows.
Missing for the full statement: shorter numbers, for which it is false (`C32_short_never_decoded`). -/
theorem C32_four_bytes_partial (P : Prims) (hP : PrimLaws P) (bp : Profile) (c : Connection) (hr : Connection.Reachable P bp c) (k : Keys)
    (hk : c.remoteSecrets .initial = .ok (secretsOf P k)) (h : LongPacketHeader) (hp : h.isProtected = false) (token pnB payload out : Bytes) (pn : U64)
    (fs : List Frame) (hw : InitialWire P k h token pnB pn.toNat payload out) (h4 : pnB.length = 4) (hv : beNat pnB = pn.toNat)
    (hf : (deserializeFrames (makeResultStream payload)).1 = .ok fs) (s : Stream) :
    decodeNextPacket bp c (makeResultStream out ++ s) =
      (.ok (.initial { header := h, token, packetNumber := pn, packetNumberBytes := pnB, packetPayload := fs }), s) :=
  decodeNext_initial_reads hP hk (reachable_iv hP hr hk).2.1 hp hw h4 (reconstruct_four (by omega) hv (reachable_acks hr .initial).2) hf s

/-- C32 fails for every shorter packet number: whatever follows, and whatever is delivered, decoding never stops at the end of the packet; ... -/
theorem C32_short_never_decoded (P : Prims) (hP : PrimLaws P) (bp : Profile) (c : Connection) (hr : Connection.Reachable P bp c) (k : Keys)
    (hk : c.remoteSecrets .initial = .ok (secretsOf P k)) (h : LongPacketHeader) (hp : h.isProtected = false) (token pnB payload out : Bytes) (pn : U64)
    (hw : InitialWire P k h token pnB pn.toNat payload out) (h4 : pnB.length < 4) (s : Stream) (q : Packet) :
    decodeNextPacket bp c (makeResultStream out ++ s) ≠ (.ok q, s) := by
  intro e
  have := initial_short hP hk (reachable_iv hP hr hk).2.1 hp hw e
  omega
/-- ... and alone in its datagram the packet is always rejected with an error. -/
theorem C32_short_rejected (P : Prims) (hP : PrimLaws P) (bp : Profile) (c : Connection) (hr : Connection.Reachable P bp c) (k : Keys)
    (hk : c.remoteSecrets .initial = .ok (secretsOf P k)) (h : LongPacketHeader) (hp : h.isProtected = false) (token pnB payload out : Bytes) (pn : U64)
    (hw : InitialWire P k h token pnB pn.toNat payload out) (h4 : pnB.length < 4) :
    (decodeNextPacket bp c (makeResultStream out)).1.isErr = true :=
  initial_short_alone hP hk (reachable_iv hP hr hk) (reachable_acks hr .initial).2 hp hw h4

/-- C32, exact: an authentic Initial packet whose number is sent in full is decoded, up to its end, exactly if that number takes four bytes. -/
theorem C32_exact (P : Prims) (hP : PrimLaws P) (bp : Profile) (c : Connection) (hr : Connection.Reachable P bp c) (k : Keys)
    (hk : c.remoteSecrets .initial = .ok (secretsOf P k)) (h : LongPacketHeader) (hp : h.isProtected = false) (token pnB payload out : Bytes) (pn : U64)
    (fs : List Frame) (hw : InitialWire P k h token pnB pn.toNat payload out) (hv : beNat pnB = pn.toNat)
    (hf : (deserializeFrames (makeResultStream payload)).1 = .ok fs) (s : Stream) :
    decodeNextPacket bp c (makeResultStream out ++ s) =
      (.ok (.initial { header := h, token, packetNumber := pn, packetNumberBytes := pnB, packetPayload := fs }), s) ↔ pnB.length = 4 := by
  refine ⟨fun e => ?_, fun h4 => C32_four_bytes_partial P hP bp c hr k hk h hp token pnB payload out pn fs hw h4 hv hf s⟩
  have := initial_short hP hk (reachable_iv hP hr hk).2.1 hp hw e
  obtain ⟨_, _, _, _, _, w, _⟩ := hw
  omega

/-- A server of the toy instance, and its receive keys. -/
theorem exConn_reachable : Connection.Reachable Spec.toy .debug exConn := ⟨true, .v1, ⟨0, 0x0102030405060708⟩, 8, exConn, [], exConn_new, rfl⟩
def keysOf : Out Secrets → Keys
  | .ok s => ⟨s.hp, s.iv.getD [], s.key⟩
  | _ => ⟨[], [], []⟩
def exKeys : Keys := keysOf (exConn.remoteSecrets .initial)
theorem exKeys_ok : exConn.remoteSecrets .initial = .ok (secretsOf Spec.toy exKeys) := by
  obtain ⟨⟨kl, kr, _, _, _, m2⟩, _⟩ := reachable_keys Spec.toy_laws exConn_reachable
  unfold exKeys
  rw [m2]
  rfl
/-- An Initial header with an `n`-byte packet number. -/
def exHeader (n : Nat) : LongPacketHeader := ⟨BitVec.ofNat 8 (0xc0 + (n - 1)), 1, 8, ⟨0, 0x0102030405060708⟩, 2, ⟨0, 0x1122⟩, none, false⟩
/-- The RFC Initial packet with that header, packet number 1 and a payload of one PING and 20 PADDING, protected by hand. -/
def exPayload : Bytes := 1 :: List.replicate 20 0
def exPn (n : Nat) : Bytes := List.replicate (n - 1) 0 ++ [1]
def exMid (n : Nat) : Bytes := [0, 0, 0, 1, 8, 1, 2, 3, 4, 5, 6, 7, 8, 2, 0x11, 0x22, 0, BitVec.ofNat 8 (n + 37)]
def exCt (n : Nat) : Bytes × Bytes :=
  (Spec.toy.gcmSeal exKeys.key (rfcNonce exKeys.iv [0, 0, 0, 0, 0, 0, 0, 1]) ([(exHeader n).headerByte] ++ exMid n ++ exPn n) exPayload).getD ([], [])
def exMask (n : Nat) : Bytes := (Spec.toy.aesEcb exKeys.hp (((exPn n ++ (exCt n).1 ++ (exCt n).2).drop 4).take 16)).getD []
def exOut (n : Nat) : Bytes :=
  [(exHeader n).headerByte ^^^ ((exMask n)[0]! &&& 0x0f)] ++ exMid n ++
    (exPn n).zipWith (· ^^^ ·) [(exMask n)[1]!, (exMask n)[2]!, (exMask n)[3]!, (exMask n)[4]!] ++ (exCt n).1 ++ (exCt n).2
theorem exOut_wire (n : Nat) (hn : n = 1 ∨ n = 2 ∨ n = 3 ∨ n = 4) : InitialWire Spec.toy exKeys (exHeader n) [] (exPn n) 1 exPayload (exOut n) := by
  refine ⟨(exMid n).take 16, [0], [BitVec.ofNat 8 (n + 37)], ?_, ?_, ?_, ⟨0, by decide⟩, ?_, ?_⟩
  · refine ⟨[0, 0, 0, 1], [1, 2, 3, 4, 5, 6, 7, 8], [0x11, 0x22], ?_⟩
    rcases hn with rfl | rfl | rfl | rfl <;> decide +kernel
  · rcases hn with rfl | rfl | rfl | rfl <;> decide +kernel
  · rcases hn with rfl | rfl | rfl | rfl <;> decide +kernel
  · refine ⟨0, ?_⟩
    rcases hn with rfl | rfl | rfl | rfl <;> decide +kernel
  · refine ⟨[0, 0, 0, 0, 0, 0, 0, 1], (exCt n).1, (exCt n).2, (exMask n)[0]!, (exMask n)[1]!, (exMask n)[2]!, (exMask n)[3]!, (exMask n)[4]!, (exMask n).drop 5, ?_⟩
    rcases hn with rfl | rfl | rfl | rfl <;> decide +kernel

theorem C32_false : ¬ C32Statement := by
  intro h
  have e := h Spec.toy Spec.toy_laws .debug exConn exConn_reachable exKeys exKeys_ok (exHeader 2) rfl [] (exPn 2) exPayload (exOut 2) 1
    (.ping :: List.replicate 20 .padding) (exOut_wire 2 (by decide)) (by decide +kernel) (by decide +kernel) []
  exact C32_short_never_decoded Spec.toy Spec.toy_laws .debug exConn exConn_reachable exKeys exKeys_ok (exHeader 2) rfl [] (exPn 2) exPayload (exOut 2) 1
    (exOut_wire 2 (by decide)) (by decide +kernel) [] _ e
/-- The four lengths, computed: only four bytes are decoded. -/
example : [1, 2, 3, 4].map (fun n => (decodeNextPacket .debug exConn (makeResultStream (exOut n))).1.isOk) = [false, false, false, true] := by decide +kernel

/-! ## C33 -/

/-- C33, Initial packets, every connection after any history: what is decoded was opened by the AEAD under the RFC 9001 Initial keys of the *other*
side, with the nonce of the packet number reported and the whole unprotected header as associated data; the frames are parsed from that plaintext. -/
theorem C33_initial (P : Prims) (hP : PrimLaws P) (bp bp' : Profile) (server : Bool) (v : Version) (d : U160) (n : Nat) (c0 : Connection)
    (h0 : Connection.new P server v d n = .ok c0) (ops : List ConnOp) (s s' : Stream) (p : PacketInitial)
    (h : decodeNextPacket bp' (c0.run bp ops).2 s = (.ok (.initial p), s')) :
    ∃ cid k, cid.length = n ∧ beNat cid = cidVal d % 256 ^ n ∧ InitialKeys P (!server) cid k ∧
      ∃ out hb tl lb plain skip L, s = makeResultStream out ++ s' ∧ LongFields p.header (p.header.headerByte :: hb) ∧
        packetKind p.header.headerByte p.header.version = .initial ∧ IsVarInt tl p.token.length ∧ IsVarInt lb L ∧
        Opened P k 0x0f p.header.headerByte (hb ++ tl ++ p.token ++ lb) p.packetNumberBytes skip p.packetNumber.toNat plain out ∧
        beNat p.packetNumberBytes = p.packetNumber.toNat ∧
        (deserializeFrames (makeResultStream plain)).1 = .ok p.packetPayload := by
  obtain ⟨cid, kl, kr, e1, e2, e3, rfl⟩ := new_ok' h0
  have hcid := toVarBytes_ok e1
  have hr : Connection.Reachable P bp _ := ⟨server, v, d, n, _, ops, h0, rfl⟩
  have hk := (run_secrets bp ops _ .initial).2.trans (show Connection.remoteSecrets { version := v, initialPnInfo := { PnInfo.new with localTlsSecrets := some (secretsOf P kl), remoteTlsSecrets := some (secretsOf P kr) }, handshakePnInfo := PnInfo.new, applicationPnInfo := PnInfo.new, dcid := (d, n), scid := none } .initial = .ok (secretsOf P kr) from rfl)
  obtain ⟨out, hb, tl, lb, pl, skip, L, g1, g2, g3, g4, g5, g6, g7, g8, g9, g10, g11⟩ := initial_opened hk (initialKeys_lens hP e3).2.1 h
  refine ⟨cid, kr, hcid.1, hcid.2, e3, out, hb, tl, lb, pl, skip, L, g1, g2, g4, g5, g6, g7, ?_, g11⟩
  obtain ⟨nb, ct, tag, m0, m1, m2, m3, m4, r, pnM, _, _, _, i4, i5, i6, _⟩ := g7
  have hl : p.packetNumberBytes.length ≤ 4 := by
    rw [i6, List.length_zipWith]
    simp only [List.length_cons, List.length_nil]
    omega
  rw [reconstruct_none bp' _ .initial _ hl (reachable_acks hr .initial).2] at g10
  have := congrArg BitVec.toNat (Out.ok.inj g10)
  rw [← this, ofNat64_toNat]
  have := beNat_lt p.packetNumberBytes
  have h2 : 256 ^ p.packetNumberBytes.length ≤ 256 ^ 4 := Nat.pow_le_pow_right (by decide) hl
  have h3 : (256 : Nat) ^ 4 = 4294967296 := by decide
  omega

/-- C33, four-byte packet numbers: what is decoded is exactly an RFC 9001 protected Initial packet, sealed under those keys. -/
theorem C33_initial_sealed (P : Prims) (hP : PrimLaws P) (bp bp' : Profile) (server : Bool) (v : Version) (d : U160) (n : Nat) (c0 : Connection)
    (h0 : Connection.new P server v d n = .ok c0) (ops : List ConnOp) (s s' : Stream) (p : PacketInitial) (hs : s.length + 4 < 2 ^ 64)
    (h : decodeNextPacket bp' (c0.run bp ops).2 s = (.ok (.initial p), s')) (h4 : p.packetNumberBytes.length = 4) :
    ∃ cid k out plain, cid.length = n ∧ beNat cid = cidVal d % 256 ^ n ∧ InitialKeys P (!server) cid k ∧ s = makeResultStream out ++ s' ∧
      InitialWire P k p.header p.token p.packetNumberBytes p.packetNumber.toNat plain out ∧
      (deserializeFrames (makeResultStream plain)).1 = .ok p.packetPayload := by
  obtain ⟨cid, kl, kr, e1, e2, e3, rfl⟩ := new_ok' h0
  have hcid := toVarBytes_ok e1
  have hk := (run_secrets bp ops _ .initial).2.trans (show Connection.remoteSecrets { version := v, initialPnInfo := { PnInfo.new with localTlsSecrets := some (secretsOf P kl), remoteTlsSecrets := some (secretsOf P kr) }, handshakePnInfo := PnInfo.new, applicationPnInfo := PnInfo.new, dcid := (d, n), scid := none } .initial = .ok (secretsOf P kr) from rfl)
  obtain ⟨out, hb, tl, lb, pl, skip, L, g1, g2, g3, g4, g5, g6, g7, g8, g9, g10, g11⟩ := initial_opened hk (initialKeys_lens hP e3).2.1 h
  refine ⟨cid, kr, out, pl, hcid.1, hcid.2, e3, g1, ?_, g11⟩
  have hlen : out.length + s'.length = s.length := by rw [g1]; simp [makeResultStream]
  obtain ⟨nb, ct, tag, m0, m1, m2, m3, m4, r, pnM, i1, i2, i3, i4, i5, i6, i7, i8, i9⟩ := g7
  have hpl : p.packetNumberBytes.length = pnM.length := by
    rw [i6, List.length_zipWith]
    rw [List.length_append] at i5
    simp only [List.length_cons, List.length_nil]
    omega
  have hskip : skip = [] := by
    rw [List.length_append] at i5
    exact List.eq_nil_of_length_eq_zero (by omega)
  subst hskip
  have hseal := hP.seal_open _ _ _ _ _ _ i3 i8
  have hsl := hP.seal_length _ _ _ _ _ _ hseal
  have hL : p.packetNumberBytes.length ≤ L := by
    by_cases hh : p.packetNumberBytes.length ≤ L
    · exact hh
    · have := g9 (by omega); omega
  have hout := g8 hL
  have hol := congrArg List.length i9
  simp only [List.length_append, List.length_cons, List.length_nil] at hol hout
  refine ⟨hb, tl, lb, g2, g4, by omega, g5, ?_, nb, ct, tag, m0, m1, m2, m3, m4, r, i1, i2, hseal, ?_, ?_, ?_⟩
  · rw [show p.packetNumberBytes.length + pl.length + 16 = L by omega]; exact g6
  · simp only [List.length_append]; omega
  · rw [List.append_assoc, List.drop_append, h4, List.drop_eq_nil_of_le (by omega)]
    exact i7
  · rw [i6, i9, zipWith_xor_twice _ _ (by simp only [List.length_cons, List.length_nil]; omega), List.append_nil]

/-- C33, the Initial packets that are accepted, exactly (in a stream of less than 2⁶⁴ bytes): those whose header is that of an Initial packet, whose token and
Length are variable-length integers, with the Length that of the packet number and what follows, and that the AEAD opens under the number in the packet
number bytes. Four bytes are taken before the ciphertext, whatever the length of the packet number: `skip` are those after it. -/
theorem C33_initial_exact (P : Prims) (hP : PrimLaws P) (bp bp' : Profile) (c : Connection) (hr : Connection.Reachable P bp c) (k : Keys)
    (hk : c.remoteSecrets .initial = .ok (secretsOf P k)) (s s' : Stream) (p : PacketInitial) (hs : s.length + 4 < 2 ^ 64) :
    decodeNextPacket bp' c s = (.ok (.initial p), s') ↔
    ∃ out hb tl lb plain skip L, s = makeResultStream out ++ s' ∧ LongFields p.header (p.header.headerByte :: hb) ∧ p.header.isProtected = false ∧
      packetKind p.header.headerByte p.header.version = .initial ∧ IsVarInt tl p.token.length ∧ IsVarInt lb L ∧
      out.length + p.packetNumberBytes.length = 1 + (hb ++ tl ++ p.token ++ lb).length + L + 4 ∧
      Opened P k 0x0f p.header.headerByte (hb ++ tl ++ p.token ++ lb) p.packetNumberBytes skip p.packetNumber.toNat plain out ∧
      beNat p.packetNumberBytes = p.packetNumber.toNat ∧ (deserializeFrames (makeResultStream plain)).1 = .ok p.packetPayload := by
  have hiv := (reachable_iv hP hr hk).2.1
  have hrec : ∀ {hb tl lb pl skip out}, Opened P k 0x0f p.header.headerByte (hb ++ tl ++ p.token ++ lb) p.packetNumberBytes skip p.packetNumber.toNat pl out →
      (c.reconstructRemotePn bp' .initial p.packetNumberBytes = .ok p.packetNumber ↔ beNat p.packetNumberBytes = p.packetNumber.toNat) := by
    intro hb tl lb pl skip out ⟨nb, ct, tag, m0, m1, m2, m3, m4, r, pnM, _, _, _, i4, i5, i6, _⟩
    have hl : p.packetNumberBytes.length ≤ 4 := by
      rw [i6, List.length_zipWith]
      simp only [List.length_cons, List.length_nil]
      omega
    rw [reconstruct_none bp' _ .initial _ hl (reachable_acks hr .initial).2]
    have h1 := beNat_lt p.packetNumberBytes
    have h2 : 256 ^ p.packetNumberBytes.length ≤ 256 ^ 4 := Nat.pow_le_pow_right (by decide) hl
    have h3 : (256 : Nat) ^ 4 = 4294967296 := by decide
    constructor
    · intro e
      rw [← congrArg BitVec.toNat (Out.ok.inj e), ofNat64_toNat (by omega)]
    · intro e
      rw [e]
      exact congrArg Out.ok (BitVec.eq_of_toNat_eq (ofNat64_toNat p.packetNumber.isLt))
  constructor
  · intro h
    obtain ⟨out, hb, tl, lb, pl, skip, L, g1, g2, g3, g4, g5, g6, g7, g8, g9, g10, g11⟩ := initial_opened hk hiv h
    have hlen : out.length + s'.length = s.length := by rw [g1]; simp [makeResultStream]
    have hL : p.packetNumberBytes.length ≤ L := by
      by_cases hh : p.packetNumberBytes.length ≤ L
      · exact hh
      · have := g9 (by omega); omega
    exact ⟨out, hb, tl, lb, pl, skip, L, g1, g2, g3, g4, g5, g6, g8 hL, g7, (hrec g7).mp g10, g11⟩
  · rintro ⟨out, hb, tl, lb, pl, skip, L, rfl, g2, g3, g4, g5, g6, g8, g7, g10, g11⟩
    exact initial_accepted hk hiv g2 g3 g4 g5 g6 g7 g8 ((hrec g7).mpr g10) g11 s'

/-- C33, rejection: an Initial packet whose Length is right, at any place of a datagram, is an error if the AEAD rejects it under the number and header
that removing header protection gives. (`m0 … m4` are the mask for the sample; `pnP` are the four bytes the code takes for the packet number.) -/
theorem C33_rejected (P : Prims) (hP : PrimLaws P) (bp bp' : Profile) (c : Connection) (hr : Connection.Reachable P bp c) (k : Keys)
    (hk : c.remoteSecrets .initial = .ok (secretsOf P k)) (h : LongPacketHeader) (hb tl token lb pnP ct tag r nb : Bytes) (m0 m1 m2 m3 m4 : U8)
    (w1 : LongFields h (h.headerByte :: hb)) (w2 : packetKind h.headerByte h.version = .initial) (w4 : IsVarInt tl token.length)
    (w5 : IsVarInt lb (h.headerByte.toNat % 4 + 1 + (ct ++ tag).length)) (hpn : pnP.length = 4) (ht : tag.length = 16)
    (hm : P.aesEcb k.hp ((ct ++ tag).take 16) = some (m0 :: m1 :: m2 :: m3 :: m4 :: r))
    (hn : nb.length = 8 ∧ beNat nb = beNat ((pnP.zipWith (· ^^^ ·) [m1, m2, m3, m4]).take (h.headerByte.toNat % 4 + 1)))
    (ho : P.gcmOpen k.key (rfcNonce k.iv nb)
      ([h.headerByte] ++ (hb ++ tl ++ token ++ lb) ++ (pnP.zipWith (· ^^^ ·) [m1, m2, m3, m4]).take (h.headerByte.toNat % 4 + 1)) ct tag = none)
    (s : Stream) :
    (decodeNextPacket bp' c (makeResultStream ([h.headerByte ^^^ (m0 &&& 0x0f)] ++ hb ++ tl ++ token ++ lb ++ pnP ++ ct ++ tag) ++ s)).1.isErr = true := by
  have hkl := reachable_iv hP hr hk
  have hm' : hpMaskAes128Ecb P k.hp ((ct ++ tag).take 16) = .ok ⟨m0, m1, m2, m3, m4⟩ := hpMask_ok.mpr ⟨r, hm⟩
  have hpk : packetKind h.headerByte h.version = .initial := w2
  have key := initial_rejected (bp := bp') (h := { h with isProtected := false }) (m := ⟨m0, m1, m2, m3, m4⟩) hk (reachable_acks hr .initial).2 rfl
    (unprot_fields (b := h.headerByte) (pr := false) w1) w2 w4 w5 hpn ht hm' (by
      have hlt : beNat nb < 2 ^ 64 := by have := beNat_lt nb; rw [hn.1] at this; exact this
      have : packetNonce k.iv (BitVec.ofNat 64 (beNat nb)) = rfcNonce k.iv nb := by
        rw [packetNonce_eq _ _ (by rw [hkl.2.1]; decide)]
        congr 1
        apply beNat_inj
        · rw [toBeBytes_length]; exact hn.1.symm
        · rw [beNat_toBeBytes', ofNat64_toNat hlt]
      show P.gcmOpen k.key (packetNonce k.iv (BitVec.ofNat 64 (beNat ((pnP.zipWith (· ^^^ ·) [m1, m2, m3, m4]).take (h.headerByte.toNat % 4 + 1))))) _ ct tag = none
      rw [← hn.2, this]
      exact ho) s
  simp only [List.append_assoc, List.cons_append, List.nil_append] at key ⊢
  exact key

/-- C33, Handshake packets, any connection with Handshake keys. -/
theorem C33_handshake (P : Prims) (bp : Profile) (c : Connection) (k : Keys) (hk : c.remoteSecrets .handshake = .ok (secretsOf P k))
    (hiv : k.iv.length = 12) (s s' : Stream) (p : PacketHandshake) (h : decodeNextPacket bp c s = (.ok (.handshake p), s')) :
    ∃ out hb lb plain skip L, s = makeResultStream out ++ s' ∧ LongFields p.header (p.header.headerByte :: hb) ∧
      packetKind p.header.headerByte p.header.version = .handshake ∧ IsVarInt lb L ∧
      Opened P k 0x0f p.header.headerByte (hb ++ lb) p.packetNumberBytes skip p.packetNumber.toNat plain out ∧
      (deserializeFrames (makeResultStream plain)).1 = .ok p.packetPayload := by
  obtain ⟨out, hb, lb, pl, skip, L, g1, g2, _, g4, g5, g6, g7⟩ := handshake_opened hk hiv h
  exact ⟨out, hb, lb, pl, skip, L, g1, g2, g4, g5, g6, g7⟩
/-- C33, 0-RTT packets. -/
theorem C33_zero_rtt (P : Prims) (bp : Profile) (c : Connection) (k : Keys) (hk : c.remoteSecrets .application = .ok (secretsOf P k))
    (hiv : k.iv.length = 12) (s s' : Stream) (p : PacketZeroRtt) (h : decodeNextPacket bp c s = (.ok (.zeroRtt p), s')) :
    ∃ out hb lb plain skip L, s = makeResultStream out ++ s' ∧ LongFields p.header (p.header.headerByte :: hb) ∧
      packetKind p.header.headerByte p.header.version = .zeroRtt ∧ IsVarInt lb L ∧
      Opened P k 0x0f p.header.headerByte (hb ++ lb) p.packetNumberBytes skip p.packetNumber.toNat plain out ∧
      (deserializeFrames (makeResultStream plain)).1 = .ok p.packetPayload := by
  obtain ⟨out, hb, lb, pl, skip, L, g1, g2, _, g4, g5, g6, g7⟩ := zeroRtt_opened hk hiv h
  exact ⟨out, hb, lb, pl, skip, L, g1, g2, g4, g5, g6, g7⟩
/-- C33, 1-RTT packets: mask bits 0x1f. -/
theorem C33_one_rtt (P : Prims) (bp : Profile) (c : Connection) (k : Keys) (hk : c.remoteSecrets .application = .ok (secretsOf P k))
    (hiv : k.iv.length = 12) (s s' : Stream) (p : PacketOneRtt) (h : decodeNextPacket bp c s = (.ok (.oneRtt p), s')) :
    ∃ out hb plain skip, s = makeResultStream out ∧ s' = [] ∧ ShortFields p.header (p.header.headerByte :: hb) ∧
      Opened P k 0x1f p.header.headerByte hb p.packetNumberBytes skip p.packetNumber.toNat plain out ∧
      (deserializeFrames (makeResultStream plain)).1 = .ok p.packetPayload := by
  obtain ⟨out, hb, pl, skip, g1, g2, g3, _, g5, g6⟩ := oneRtt_opened hk hiv h
  exact ⟨out, hb, pl, skip, g1, g2, g3, g5, g6⟩
/-- One changed byte, anywhere in the packet of `exOut`, and nothing is delivered (computed with the toy tag, which is an xor sum). -/
example : (List.range (exOut 4).length).all (fun i => !(decodeNextPacket .release exConn (makeResultStream ((exOut 4).set i ((exOut 4)[i]! ^^^ 0x08)))).1.isOk) = true := by
  decide +kernel

/-! ## C34 -/

/-- C34. On every reachable connection, a packet whose header says Handshake or 0-RTT, or with a short header, is an error, whatever follows. -/
theorem C34_no_keys_error (P : Prims) (hP : PrimLaws P) (bp bp' : Profile) (c : Connection) (hr : Connection.Reachable P bp c) (s : Stream)
    (h : (∃ h rest, LongAt s h rest ∧ (packetKind h.headerByte h.version = .handshake ∨ packetKind h.headerByte h.version = .zeroRtt)) ∨
      ∃ h rest, ShortAt s h rest) : (decodeNextPacket bp' c s).1.isErr = true := by
  obtain ⟨_, hno⟩ := reachable_keys hP hr
  obtain ⟨_, e1, he1⟩ := hno .handshake (by decide)
  obtain ⟨_, e2, he2⟩ := hno .application (by decide)
  rcases h with ⟨h, rest, hl, hk | hk⟩ | ⟨h, rest, hs⟩
  · rw [decodeNext_long (longAt_next hl)]
    show (longReader bp' c (packetKind h.headerByte h.version) s).1.isErr = true
    rw [hk]
    exact Rd.bind_isErr' (handshake_noKeys he1 s)
  · rw [decodeNext_long (longAt_next hl)]
    show (longReader bp' c (packetKind h.headerByte h.version) s).1.isErr = true
    rw [hk]
    exact Rd.bind_isErr' (zeroRtt_noKeys he2 s)
  · rw [decodeNext_short (shortAt_next hs)]
    exact Rd.bind_isErr' (oneRtt_noKeys he2 s)
/-- C34. Only Initial and Version Negotiation packets are ever decoded on a reachable connection. -/
theorem C34_never_decoded (P : Prims) (hP : PrimLaws P) (bp bp' : Profile) (c : Connection) (hr : Connection.Reachable P bp c) (s s' : Stream) (p : Packet)
    (h : decodeNextPacket bp' c s = (.ok p, s')) : p.kind = .initial ∨ p.kind = .versionNegotiation := by
  have hno : ¬ (decodeNextPacket bp' c s).1.isErr = true := by rw [h]; simp [Out.isErr]
  obtain ⟨x, s1, hx⟩ := decodeNext_header h
  cases x with
  | short x => exact absurd (C34_no_keys_error P hP bp bp' c hr s (Or.inr ⟨x, s1, next_shortAt hx⟩)) hno
  | long x =>
    have hd := decodeNext_long (bp := bp') (c := c) hx
    rw [h] at hd
    cases hk : packetKind x.headerByte x.version with
    | versionNegotiation => rw [hk] at hd; obtain ⟨q, _, _, e⟩ := Rd.bind_eq_ok hd.symm; cases e; exact Or.inr rfl
    | initial => rw [hk] at hd; obtain ⟨q, _, _, e⟩ := Rd.bind_eq_ok hd.symm; cases e; exact Or.inl rfl
    | zeroRtt => exact absurd (C34_no_keys_error P hP bp bp' c hr s (Or.inl ⟨x, s1, next_longAt hx, Or.inr hk⟩)) hno
    | handshake => exact absurd (C34_no_keys_error P hP bp bp' c hr s (Or.inl ⟨x, s1, next_longAt hx, Or.inl hk⟩)) hno
    | retry => rw [hk] at hd; cases hd
    | oneRtt => rw [hk] at hd; cases hd
    | statelessReset => rw [hk] at hd; cases hd
/-- Nor can such a packet be sent. -/
theorem C34_never_sent (P : Prims) (hP : PrimLaws P) (bp : Profile) (c : Connection) (hr : Connection.Reachable P bp c) (p : PacketHandshake) (out : Bytes) :
    p.serialize c ≠ .ok out := by
  intro h
  obtain ⟨_, hno⟩ := reachable_keys hP hr
  obtain ⟨⟨e1, he1⟩, _⟩ := hno .handshake (by decide)
  rw [handshake_serialize_eq] at h
  obtain ⟨_, _, h⟩ := Out.bind_eq_ok h
  obtain ⟨_, _, h⟩ := Out.bind_eq_ok h
  obtain ⟨_, h1, _⟩ := Out.bind_eq_ok h
  unfold Connection.getLocalProtectedPayloadLen at h1
  rw [he1] at h1
  cases h1
/-- Non-trivial instance: a complete 1-RTT header, and a Handshake one. -/
example : (decodeNextPacket .debug exConn (makeResultStream (0x41 :: List.replicate 60 7))).1.isErr = true ∧
    (decodeNextPacket .debug exConn (makeResultStream ([0xe1, 0, 0, 0, 1, 0, 0, 40] ++ List.replicate 60 7))).1.isErr = true := by decide +kernel

/-! ## C35 -/

/-- What C35 asks. -/
def C35For (P : Prims) : Prop :=
  ∀ (bp : Profile) (c : Connection) (_ : Connection.Reachable P bp c) (datagram : Bytes),
    (decodePackets bp c (makeResultStream datagram)).1.isPanic = false
/-- The claim, for all algorithms that obey the laws. -/
def C35Statement : Prop := ∀ P, PrimLaws P → C35For P

/-- An Initial packet of which at least token, Length, four bytes for the packet number and the 16-byte sample are there, and whose Length `L` does
not leave room for the 16-byte tag behind the packet number: `n ≤ L < n + 16` with `n` the packet number length that the header shows once
unmasked; in debug builds also `L < n`. -/
def ShortInitial (P : Prims) (k : Keys) (bp : Profile) (first : U8) (rest : Stream) : Prop :=
  ∃ tl token lb L pnP sample s m0 m1 m2 m3 m4 r, rest = makeResultStream (tl ++ token ++ lb ++ pnP ++ sample) ++ s ∧
    IsVarInt tl token.length ∧ IsVarInt lb L ∧ pnP.length = 4 ∧ sample.length = 16 ∧
    P.aesEcb k.hp sample = some (m0 :: m1 :: m2 :: m3 :: m4 :: r) ∧
    ((first ^^^ (m0 &&& 0x0f)).toNat % 4 + 1 ≤ L ∧ L < (first ^^^ (m0 &&& 0x0f)).toNat % 4 + 1 + 16 ∨
      bp = .debug ∧ L < (first ^^^ (m0 &&& 0x0f)).toNat % 4 + 1)

/-- C35, exactly when decoding one packet panics, on every reachable connection, for every stream: no complete header; a Retry packet; or an
Initial packet with a short Length.
Missing for the full statement: that these cases do not occur, which is false (`C35_false`). -/
theorem C35_exact_panic_partial (P : Prims) (hP : PrimLaws P) (bp bp' : Profile) (c : Connection) (hr : Connection.Reachable P bp c) (k : Keys)
    (hk : c.remoteSecrets .initial = .ok (secretsOf P k)) (s : Stream) :
    (decodeNextPacket bp' c s).1.isPanic = true ↔
      ((∀ h rest, ¬ LongAt s h rest) ∧ (∀ h rest, ¬ ShortAt s h rest)) ∨
      (∃ h rest, LongAt s h rest ∧ packetKind h.headerByte h.version = .retry) ∨
      (∃ h rest, LongAt s h rest ∧ packetKind h.headerByte h.version = .initial ∧ ShortInitial P k bp' h.headerByte rest) := by
  have hkl := reachable_iv hP hr hk
  cases hx : nextHeaderFromStream s with
  | mk o s1 =>
    cases o with
    | err e =>
      refine ⟨fun _ => Or.inl ⟨?_, ?_⟩, fun _ => decodeNext_err hx⟩
      · intro h rest hl; rw [longAt_next hl] at hx; cases hx
      · intro h rest hl; rw [shortAt_next hl] at hx; cases hx
    | panic w =>
      have := nextHeader_noPanic s
      rw [hx] at this
      cases this
    | ok x =>
      cases x with
      | short x =>
        have h1 := C34_no_keys_error P hP bp bp' c hr s (Or.inr ⟨x, s1, next_shortAt hx⟩)
        constructor
        · intro h
          exfalso
          cases hd : (decodeNextPacket bp' c s).1 with
          | ok a => rw [hd] at h; cases h
          | err a => rw [hd] at h; cases h
          | panic a => rw [hd] at h1; cases h1
        · rintro (⟨_, h2⟩ | ⟨h, rest, hl, _⟩ | ⟨h, rest, hl, _⟩)
          · exact absurd (next_shortAt hx) (h2 x s1)
          · rw [longAt_next hl] at hx; cases hx
          · rw [longAt_next hl] at hx; cases hx
      | long x =>
        have hl := next_longAt hx
        have same : ∀ h rest, LongAt s h rest → h.headerByte = x.headerByte ∧ h.version = x.version ∧ rest = s1 := by
          intro h rest hl'
          rw [longAt_next hl'] at hx
          cases hx
          exact ⟨rfl, rfl, rfl⟩
        rw [decodeNext_long hx]
        have nope : packetKind x.headerByte x.version ≠ .retry → packetKind x.headerByte x.version ≠ .initial →
            (longReader bp' c (packetKind x.headerByte x.version) s).1.isPanic = false →
            ((longReader bp' c (packetKind x.headerByte x.version) s).1.isPanic = true ↔
              ((∀ h rest, ¬ LongAt s h rest) ∧ (∀ h rest, ¬ ShortAt s h rest)) ∨
              (∃ h rest, LongAt s h rest ∧ packetKind h.headerByte h.version = .retry) ∨
              (∃ h rest, LongAt s h rest ∧ packetKind h.headerByte h.version = .initial ∧ ShortInitial P k bp' h.headerByte rest)) := by
          intro n1 n2 n3
          refine ⟨fun h => absurd h (by rw [n3]; decide), ?_⟩
          rintro (⟨h2, _⟩ | ⟨h, rest, hl', e⟩ | ⟨h, rest, hl', e, _⟩)
          · exact absurd hl (h2 x s1)
          · obtain ⟨e1, e2, _⟩ := same h rest hl'; rw [e1, e2] at e; exact absurd e n1
          · obtain ⟨e1, e2, _⟩ := same h rest hl'; rw [e1, e2] at e; exact absurd e n2
        have errNo : ∀ {o : Out Packet}, o.isErr = true → o.isPanic = false := by
          intro o h; cases o <;> first | rfl | cases h
        obtain ⟨_, hno⟩ := reachable_keys hP hr
        obtain ⟨_, e1, he1⟩ := hno .handshake (by decide)
        obtain ⟨_, e2, he2⟩ := hno .application (by decide)
        cases hkind : packetKind x.headerByte x.version with
        | initial =>
          have hi := initial_panic_iff (bp := bp') hP hk hkl.1 (reachable_acks hr .initial).2 hx hkind
          have hpi : (longReader bp' c .initial s).1.isPanic = (PacketInitial.fromStream bp' c s).1.isPanic := by
            show ((PacketInitial.fromStream bp' c >>= fun res => pure (Packet.initial res)) s).1.isPanic = _
            rw [Rd.bind_apply]
            rcases PacketInitial.fromStream bp' c s with ⟨o, s2⟩
            cases o <;> rfl
          rw [hpi, hi]
          constructor
          · rintro ⟨tl, tok, lb, L, pnP, smp, s2, m, a1, a2, a3, a4, a5, a6, a7⟩
            obtain ⟨r, a6⟩ := hpMask_ok.mp a6
            exact Or.inr (Or.inr ⟨x, s1, hl, hkind, tl, tok, lb, L, pnP, smp, s2, _, _, _, _, _, r, a1, a2, a3, a4, a5, a6, a7⟩)
          · rintro (⟨h2, _⟩ | ⟨h, rest, hl', e⟩ | ⟨h, rest, hl', e, tl, tok, lb, L, pnP, smp, s2, m0, m1, m2, m3, m4, r, a1, a2, a3, a4, a5, a6, a7⟩)
            · exact absurd hl (h2 x s1)
            · obtain ⟨e1, e2, _⟩ := same h rest hl'; rw [e1, e2, hkind] at e; cases e
            · obtain ⟨e1, e2, e3⟩ := same h rest hl'
              rw [e1] at a7
              rw [e3] at a1
              exact ⟨tl, tok, lb, L, pnP, smp, s2, ⟨m0, m1, m2, m3, m4⟩, a1, a2, a3, a4, a5, hpMask_ok.mpr ⟨r, a6⟩, a7⟩
        | retry => exact ⟨fun _ => Or.inr (Or.inl ⟨x, s1, hl, hkind⟩), fun _ => rfl⟩
        | handshake =>
          rw [hkind] at nope
          exact nope (by decide) (by decide) (errNo (Rd.bind_isErr' (handshake_noKeys he1 s)))
        | zeroRtt =>
          rw [hkind] at nope
          exact nope (by decide) (by decide) (errNo (Rd.bind_isErr' (zeroRtt_noKeys he2 s)))
        | versionNegotiation =>
          rw [hkind] at nope
          exact nope (by decide) (by decide) (vn_noPanic.bind (fun q => NoPanic.pure (Packet.versionNegotiation q)) s)
        | oneRtt => exact absurd hkind (not_oneRtt _ hl.choose_spec.2.2)
        | statelessReset => exact absurd hkind (by unfold packetKind; split <;> first | exact PacketType.noConfusion | (split <;> first | exact PacketType.noConfusion | (split <;> exact PacketType.noConfusion)))

/-- C35, termination: decoding a packet takes at least one byte, so the loop of `decode_packets` ends; the model function, which is total, satisfies the
loop equation of the source on every stream. -/
theorem C35_terminates (bp : Profile) (c : Connection) (s : Stream) :
    (∀ p s', decodeNextPacket bp c s = (.ok p, s') → s' <:+ s ∧ s'.length < s.length) ∧
    decodePackets bp c [] = (.ok [], []) ∧
    (s ≠ [] → decodePackets bp c s =
      (do let p ← decodeNextPacket bp c; let ps ← decodePackets bp c; pure (p :: ps) : Rd (List Packet)) s) :=
  ⟨fun p s' h => decodeNext_consumes bp c s p s' h, rfl, decodePackets_eq bp c s⟩

/-- C35, whole datagrams: no panic unless a packet starting somewhere in it is one of those of `C35_exact_panic_partial`.
Missing for the full statement: that these cases do not occur, which is false (`C35_false`). -/
theorem C35_no_panic_partial (P : Prims) (hP : PrimLaws P) (bp bp' : Profile) (c : Connection) (hr : Connection.Reachable P bp c) (k : Keys)
    (hk : c.remoteSecrets .initial = .ok (secretsOf P k)) (s : Stream)
    (hno : ∀ s1, s1 <:+ s → s1 ≠ [] →
      ((∃ h rest, LongAt s1 h rest ∧ packetKind h.headerByte h.version ≠ .retry ∧
          (packetKind h.headerByte h.version = .initial → ¬ ShortInitial P k bp' h.headerByte rest)) ∨ ∃ h rest, ShortAt s1 h rest)) :
    (decodePackets bp' c s).1.isPanic = false := by
  cases hp : (decodePackets bp' c s).1.isPanic with
  | false => rfl
  | true =>
    exfalso
    obtain ⟨s1, h1, h2, h3⟩ := decodePackets_panic hp
    rcases (C35_exact_panic_partial P hP bp bp' c hr k hk s1).mp h3 with ⟨a, b⟩ | ⟨h, rest, hl, e⟩ | ⟨h, rest, hl, e, hsi⟩ <;>
      rcases hno s1 h1 h2 with ⟨h', rest', hl', n1, n2⟩ | ⟨h', rest', hs'⟩
    · exact a _ _ hl'
    · exact b _ _ hs'
    · obtain ⟨e1, e2, _⟩ := longAt_same hl hl'; rw [e1, e2] at e; exact n1 e
    · have := longAt_next hl; rw [shortAt_next hs'] at this; cases this
    · obtain ⟨e1, e2, e3⟩ := longAt_same hl hl'; rw [e1, e2] at e; rw [e1, e3] at hsi; exact n2 e hsi
    · have := longAt_next hl; rw [shortAt_next hs'] at this; cases this

theorem decodePackets_first_panic {bp : Profile} {c : Connection} {s : Stream} (hs : s ≠ []) (h : (decodeNextPacket bp c s).1.isPanic = true) :
    (decodePackets bp c s).1.isPanic = true := by
  rw [decodePackets_eq bp c s hs, Rd.bind_apply]
  rcases hd : decodeNextPacket bp c s with ⟨o, s'⟩
  rw [hd] at h
  cases o <;> first | rfl | cases h

/-- C35 fails, 1: every datagram starting with an Initial header and a Length of 4 to 16 panics, in debug and release builds, on every reachable
connection; no key is needed to make one. -/
theorem C35_short_length_panics (P : Prims) (hP : PrimLaws P) (bp bp' : Profile) (c : Connection) (hr : Connection.Reachable P bp c)
    (h : LongPacketHeader) (hb tl token lb rest : Bytes) (L : Nat) (h1 : LongFields h hb) (h2 : packetKind h.headerByte h.version = .initial)
    (h3 : IsVarInt tl token.length) (h4 : IsVarInt lb L) (h5 : 4 ≤ L ∧ L ≤ 16) (h6 : 20 ≤ rest.length) :
    (decodePackets bp' c (makeResultStream (hb ++ tl ++ token ++ lb ++ rest))).1.isPanic = true := by
  obtain ⟨⟨kl, kr, l1, l2, m1, m2⟩, _⟩ := reachable_keys hP hr
  obtain ⟨o, ho, hol⟩ := hP.ecb kr.hp ((rest.drop 4).take 16) l2.1 (by simp; omega)
  match o, hol with
  | m0 :: m1 :: m2' :: m3 :: m4 :: r, _ =>
    have hlat : LongAt (makeResultStream (hb ++ tl ++ token ++ lb ++ rest)) h (makeResultStream (tl ++ token ++ lb ++ rest)) :=
      ⟨hb, by simp, h1, kind_long (by rw [h2]; decide)⟩
    refine decodePackets_first_panic ?_ ((C35_exact_panic_partial P hP bp bp' c hr kr m2 _).mpr (Or.inr (Or.inr ⟨h, _, hlat, h2, tl, token, lb, L, rest.take 4,
      (rest.drop 4).take 16, makeResultStream (rest.drop 20), m0, m1, m2', m3, m4, r, ?_, h3, h4, by simp; omega, by simp; omega, ho, Or.inl ?_⟩)))
    · obtain ⟨vb, d, sc, rfl, _⟩ := h1; simp
    · have hrest : rest = rest.take 4 ++ ((rest.drop 4).take 16 ++ rest.drop 20) := by
        rw [show rest.drop 20 = (rest.drop 4).drop 16 by rw [List.drop_drop], List.take_append_drop, List.take_append_drop]
      rw [← makeResultStream_append]
      congr 1
      simp only [List.append_assoc]
      rw [← hrest]
    · have : (h.headerByte ^^^ (m0 &&& 0x0f)).toNat % 4 < 4 := Nat.mod_lt _ (by decide)
      omega
/-- C35 fails, 2: every Retry packet. -/
theorem C35_retry_panics (bp : Profile) (c : Connection) (h : LongPacketHeader) (s rest : Stream) (hl : LongAt s h rest)
    (hk : packetKind h.headerByte h.version = .retry) : (decodePackets bp c s).1.isPanic = true := by
  refine decodePackets_first_panic ?_ ?_
  · obtain ⟨bs, rfl, ⟨vb, d, sc, rfl, _⟩, _⟩ := hl; simp
  · rw [decodeNext_long (longAt_next hl)]
    show (longReader bp c (packetKind h.headerByte h.version) s).1.isPanic = true
    rw [hk]
    rfl
/-- C35 fails, 3: decodable packets followed by bytes that hold no complete header (such as padding after a packet: any 1 to 8 bytes below 0x80). -/
theorem C35_trailing_bytes_panic (bp : Profile) (c : Connection) (l : List (Bytes × Packet))
    (h : ∀ x ∈ l, ∀ s, decodeNextPacket bp c (makeResultStream x.1 ++ s) = (.ok x.2, s)) (tail : Bytes) (h1 : 0 < tail.length ∧ tail.length ≤ 8)
    (h2 : ∀ b ∈ tail, b.toNat < 128) :
    (decodePackets bp c (makeResultStream ((l.map Prod.fst).flatten ++ tail))).1.isPanic = true := by
  induction l with
  | nil =>
    refine decodePackets_first_panic ?_ ?_
    · intro e
      have := congrArg List.length e
      simp [makeResultStream] at this
      rw [this] at h1
      exact absurd h1.1 (by decide)
    · simp only [List.map_nil, List.flatten_nil, List.nil_append]
      cases hx : nextHeaderFromStream (makeResultStream tail) with
      | mk o s1 =>
        cases o with
        | err e => exact decodeNext_err hx
        | panic w => have := nextHeader_noPanic (makeResultStream tail); rw [hx] at this; cases this
        | ok x =>
          exfalso
          cases x with
          | short x =>
            obtain ⟨bs, e, ⟨d, rfl, hd, _⟩, _⟩ := next_shortAt hx
            have := congrArg List.length e
            simp [makeResultStream, hd] at this
            omega
          | long x =>
            obtain ⟨bs, e, ⟨vb, d, sc, rfl, _⟩, hx⟩ := next_longAt hx
            match tail, h1 with
            | b :: t, _ =>
              simp at e
              have := h2 b (by simp)
              rw [e.1] at this
              omega
  | cons x l ih =>
    have hx := h x (by simp) (makeResultStream ((l.map Prod.fst).flatten ++ tail))
    have ih := ih (fun y hy => h y (by simp [hy]))
    have hne : makeResultStream x.1 ++ makeResultStream ((l.map Prod.fst).flatten ++ tail) ≠ [] := by
      intro e
      have := congrArg List.length e
      simp [makeResultStream] at this
      rw [this.2.2] at h1
      exact absurd h1.1 (by decide)
    have e : makeResultStream (((x :: l).map Prod.fst).flatten ++ tail) = makeResultStream x.1 ++ makeResultStream ((l.map Prod.fst).flatten ++ tail) := by simp
    rw [e, decodePackets_eq bp c _ hne, Rd.bind_ok hx, Rd.bind_apply]
    rcases hd : decodePackets bp c (makeResultStream ((l.map Prod.fst).flatten ++ tail)) with ⟨o, s'⟩
    rw [hd] at ih
    cases o <;> first | rfl | cases ih

/-- C35, false: 28 bytes which anybody can send. -/
theorem C35_false : ¬ C35Statement := by
  intro h
  have h1 := h Spec.toy Spec.toy_laws .debug exConn exConn_reachable ([0xc0, 0, 0, 0, 1, 0, 0] ++ [0] ++ [] ++ [16] ++ List.replicate 20 0)
  have h2 := C35_short_length_panics Spec.toy Spec.toy_laws .debug .debug exConn exConn_reachable ⟨0xc0, 1, 0, ⟨0, 0⟩, 0, ⟨0, 0⟩, none, true⟩
    [0xc0, 0, 0, 0, 1, 0, 0] [0] [] [16] (List.replicate 20 0) 16 ⟨[0, 0, 0, 1], [], [], by decide +kernel⟩ (by decide +kernel)
    ⟨0, by decide⟩ ⟨0, by decide⟩ (by decide) (by simp)
  rw [h1] at h2
  cases h2

/-! ## C38 -/

/-- C38. A Version Negotiation packet is delivered exactly when a complete version-0 long header is followed by a multiple of four bytes; the versions
are those four-byte groups, in order and big-endian, and the whole datagram is consumed. -/
theorem C38_version_negotiation (bp : Profile) (c : Connection) (s s' : Stream) (p : PacketVersionNegotiation) :
    decodeNextPacket bp c s = (.ok (.versionNegotiation p), s') ↔
      s' = [] ∧ p.header.isProtected = false ∧ ∃ (hb : Bytes) (groups : List Bytes), s = makeResultStream (hb ++ groups.flatten) ∧ LongFields p.header hb ∧
        128 ≤ p.header.headerByte.toNat ∧ p.header.version.toNat = 0 ∧ (∀ g ∈ groups, g.length = 4) ∧
        groups.map beNat = p.supportedVersions.map BitVec.toNat := by
  constructor
  · intro h
    obtain ⟨x, s1, hx⟩ := decodeNext_header h
    cases x with
    | short x => rw [decodeNext_short hx] at h; obtain ⟨q, _, _, e⟩ := Rd.bind_eq_ok h; cases e
    | long x =>
      rw [decodeNext_long hx] at h
      obtain ⟨hb, e0, hf, h128, hpr, r1, r2⟩ := long_prefix hx
      cases hkind : packetKind x.headerByte x.version with
      | versionNegotiation =>
        rw [hkind] at h hpr
        obtain ⟨q, s2, e1, e2⟩ := Rd.bind_eq_ok h
        cases e2
        unfold PacketVersionNegotiation.fromStream at e1
        rw [Rd.bind_ok r1, Rd.bind_ok r2] at e1
        obtain ⟨bs, s3, g1, g2⟩ := Rd.bind_eq_ok e1
        obtain ⟨f1, f2⟩ := allBytes_ok g1
        split at g2
        · cases g2
        · rename_i hal
          obtain ⟨vs, s4, g3, g4⟩ := Rd.bind_eq_ok g2
          rw [Rd.lift_apply] at g3
          obtain ⟨g5, rfl⟩ := Prod.mk.inj g3
          cases g4
          have h4 : bs.length % 4 = 0 := by
            have : bs.length &&& 3 = bs.length % 4 := Nat.and_two_pow_sub_one_eq_mod bs.length 2
            omega
          obtain ⟨cs, k1, k2, k3⟩ := (chunks_ok h4).mp g5
          refine ⟨f2, hpr, x.headerByte :: hb, cs, ?_, hf, h128, ?_, k2, k3⟩
          · rw [e0, f1, ← k1]; simp
          · have := hkind
            unfold packetKind at this
            rw [if_neg (by omega)] at this
            by_cases h0 : x.version.toNat = 0
            · exact h0
            · rw [if_neg h0] at this
              split at this <;> cases this
      | initial => rw [hkind] at h; obtain ⟨q, _, _, e⟩ := Rd.bind_eq_ok h; cases e
      | handshake => rw [hkind] at h; obtain ⟨q, _, _, e⟩ := Rd.bind_eq_ok h; cases e
      | zeroRtt => rw [hkind] at h; obtain ⟨q, _, _, e⟩ := Rd.bind_eq_ok h; cases e
      | retry => rw [hkind] at h; cases h
      | oneRtt => rw [hkind] at h; cases h
      | statelessReset => rw [hkind] at h; cases h
  · rintro ⟨rfl, hpr, hb, groups, rfl, hf, h128, h0, h4, hv⟩
    have hkind : packetKind p.header.headerByte p.header.version = .versionNegotiation := by
      unfold packetKind; rw [if_neg (by omega), if_pos h0]
    have hx : nextHeaderFromStream (makeResultStream (hb ++ groups.flatten)) = (.ok (.long p.header), makeResultStream groups.flatten) :=
      nextHeader_long_iff.mpr ⟨hb, by simp, hf, h128, by rw [hpr, hkind]; rfl⟩
    obtain ⟨hb', e0, hf', _, _, r1, r2⟩ := long_prefix hx
    rw [decodeNext_long hx, hkind]
    have hlen : groups.flatten.length % 4 = 0 := by
      clear hx r1 r2 e0 hv
      induction groups with
      | nil => rfl
      | cons g gs ih =>
        have := h4 g (by simp)
        have := ih (fun x hx => h4 x (by simp [hx]))
        rw [List.flatten_cons, List.length_append]
        omega
    have hch := (chunks_ok hlen).mpr ⟨groups, rfl, h4, hv⟩
    have : PacketVersionNegotiation.fromStream (makeResultStream (hb ++ groups.flatten)) = (.ok p, []) := by
      unfold PacketVersionNegotiation.fromStream
      rw [Rd.bind_ok r1, Rd.bind_ok r2, Rd.bind_ok (allBytes_run _)]
      have h3 : ¬ (groups.flatten.length &&& 0x03 ≠ 0) := by
        have : groups.flatten.length &&& 3 = groups.flatten.length % 4 := Nat.and_two_pow_sub_one_eq_mod _ 2
        omega
      rw [if_neg h3, hch]
      rfl
    show (PacketVersionNegotiation.fromStream >>= fun res => pure (Packet.versionNegotiation res)) _ = _
    rw [Rd.bind_ok this]
    rfl
/-- C38, the rest: with a complete version-0 header anything else is an error, not a panic. -/
theorem C38_rejects (bp : Profile) (c : Connection) (s rest : Stream) (h : LongPacketHeader) (hl : LongAt s h rest) (h0 : h.version.toNat = 0)
    (hno : ∀ p s', decodeNextPacket bp c s ≠ (.ok (.versionNegotiation p), s')) : (decodeNextPacket bp c s).1.isErr = true := by
  have h128 : 128 ≤ h.headerByte.toNat := hl.choose_spec.2.2
  have hkind : packetKind h.headerByte h.version = .versionNegotiation := by
    unfold packetKind; rw [if_neg (by omega), if_pos h0]
  have hd := decodeNext_long (bp := bp) (c := c) (longAt_next hl)
  rw [show packetKind ({ h with isProtected := protectable (packetKind h.headerByte h.version) } : LongPacketHeader).headerByte
    ({ h with isProtected := protectable (packetKind h.headerByte h.version) } : LongPacketHeader).version = .versionNegotiation from hkind] at hd
  rcases e : decodeNextPacket bp c s with ⟨o, s'⟩
  rw [e] at hd
  cases o with
  | err e => rfl
  | ok p => exfalso; obtain ⟨q, _, _, e2⟩ := Rd.bind_eq_ok hd.symm; cases e2; exact hno _ _ e
  | panic w =>
    have := vn_noPanic.bind (fun q => NoPanic.pure (Packet.versionNegotiation q)) s
    have h2 : (longReader bp c .versionNegotiation s).1.isPanic = false := this
    rw [← hd] at h2
    cases h2
/-- Non-trivial instance: two versions, ids of 1 and 2 bytes; and a misaligned one. -/
example : decodeNextPacket .debug exConn (makeResultStream [0x80, 0, 0, 0, 0, 1, 9, 2, 8, 7, 0, 0, 0, 1, 0xff, 0, 0, 0x1d]) =
      (.ok (.versionNegotiation ⟨⟨0x80, 0, 1, ⟨0, 0⟩, 2, ⟨0, 0⟩, some ⟨[9], [8, 7]⟩, false⟩, [1, 0xff00001d]⟩), []) ∧
    (decodeNextPacket .debug exConn (makeResultStream [0x80, 0, 0, 0, 0, 1, 9, 2, 8, 7, 0, 0, 0, 1, 0xff, 0, 0])).1.isErr = true := by decide +kernel

/-! ## C53 -/

/-- What C53 asks: a receiver with matching Handshake keys, no acknowledgement recorded, an RFC Handshake packet with a packet number of any length. -/
def C53For (P : Prims) : Prop :=
  ∀ (bp : Profile) (c : Connection) (k : Keys) (_ : KeyLens k) (_ : c.remoteSecrets .handshake = .ok (secretsOf P k))
    (_ : (c.pnInfo .handshake).largestRemoteAck = none) (h : LongPacketHeader) (_ : h.isProtected = false) (pnB payload out : Bytes) (pn : U64)
    (fs : List Frame) (_ : HandshakeWire P k h pnB pn.toNat payload out) (_ : beNat pnB = pn.toNat)
    (_ : (deserializeFrames (makeResultStream payload)).1 = .ok fs) (s : Stream),
    decodeNextPacket bp c (makeResultStream out ++ s) =
      (.ok (.handshake { header := h, packetNumber := pn, packetNumberBytes := pnB, packetPayload := fs }), s)
/-- The claim, for all algorithms that obey the laws. -/
def C53Statement : Prop := ∀ P, PrimLaws P → C53For P

/-- C53, end to end: with matching Handshake keys and no acknowledgements, every Handshake packet that can be built is serialized and decoded by the
peer to the packet that was built.
Missing for the full statement: shorter numbers, for which it is false (`C53_short_never_decoded`). -/
theorem C53_round_trip_partial (P : Prims) (hP : PrimLaws P) (bp bp' : Profile) (cs cs' cr : Connection) (k : Keys) (hkl : KeyLens k)
    (h1 : cs'.localSecrets .handshake = .ok (secretsOf P k)) (h2 : cr.remoteSecrets .handshake = .ok (secretsOf P k))
    (a1 : (cs.pnInfo .handshake).largestLocalAck = none) (a2 : (cr.pnInfo .handshake).largestRemoteAck = none)
    (hd : cs.dcid.2 ≤ 20 ∧ cidVal cs.dcid.1 < 256 ^ cs.dcid.2) (hs : HasScid cs)
    (fs : List Frame) (hw : ∀ f ∈ fs, WellFormed f) (hp : ∀ f ∈ fs, Plain f)
    (hl : ∀ bs, serializeFrames fs false = .ok bs → bs.length < 2 ^ 30)
    (p : PacketHandshake) (hb : (PacketHandshake.new bp fs cs).1 = .ok p) :
    p.packetPayload = fs ∧ ∃ out, p.serialize cs' = .ok out ∧
      ∀ s, decodeNextPacket bp' cr (makeResultStream out ++ s) = (.ok (.handshake p), s) := by
  obtain ⟨bs, e1, e2⟩ := C10_frames_round_trip fs false hw hp
  have hc : IdsOk cs := by
    obtain ⟨sc, sl, f1, f2, f3⟩ := hs
    refine ⟨hd.1, hd.2, ?_, ?_⟩ <;> (intro x hx; rw [f1] at hx; cases hx; assumption)
  obtain ⟨out, o1, o2, o3, o4, o5, o7⟩ := built_handshake hP h1 hkl hc a1 hb e1 (hl bs e1)
  refine ⟨o7, out, o1, fun s => ?_⟩
  have := decodeNext_handshake_reads hP h2 hkl.2.1 o5 o2 o3 (reconstruct_four (bp := bp') (by omega) o4 a2) (by rw [e2]) s
  rw [this]
  subst o7
  rfl
/-- C53 for any RFC Handshake packet with a four-byte packet number.
Missing for the full statement: shorter numbers, for which it is false (`C53_short_never_decoded`). -/
theorem C53_four_bytes_partial (P : Prims) (hP : PrimLaws P) (bp : Profile) (c : Connection) (k : Keys) (hkl : KeyLens k)
    (hk : c.remoteSecrets .handshake = .ok (secretsOf P k)) (ha : (c.pnInfo .handshake).largestRemoteAck = none) (h : LongPacketHeader)
    (hp : h.isProtected = false) (pnB payload out : Bytes) (pn : U64) (fs : List Frame) (hw : HandshakeWire P k h pnB pn.toNat payload out)
    (h4 : pnB.length = 4) (hv : beNat pnB = pn.toNat) (hf : (deserializeFrames (makeResultStream payload)).1 = .ok fs) (s : Stream) :
    decodeNextPacket bp c (makeResultStream out ++ s) =
      (.ok (.handshake { header := h, packetNumber := pn, packetNumberBytes := pnB, packetPayload := fs }), s) :=
  decodeNext_handshake_reads hP hk hkl.2.1 hp hw h4 (reconstruct_four (by omega) hv ha) hf s
/-- C53 fails for every shorter packet number: decoding never stops at the end of the packet, whatever it delivers. -/
theorem C53_short_never_decoded (P : Prims) (hP : PrimLaws P) (bp : Profile) (c : Connection) (k : Keys) (hkl : KeyLens k)
    (hk : c.remoteSecrets .handshake = .ok (secretsOf P k)) (h : LongPacketHeader)
    (hp : h.isProtected = false) (pnB payload out : Bytes) (pn : U64) (hw : HandshakeWire P k h pnB pn.toNat payload out)
    (h4 : pnB.length < 4) (s : Stream) (q : Packet) : decodeNextPacket bp c (makeResultStream out ++ s) ≠ (.ok q, s) := by
  intro e
  have := handshake_short hP hk hkl.2.1 hp hw e
  omega
/-- C53, exactly: an RFC Handshake packet is decoded to itself precisely when its packet number takes four bytes. -/
theorem C53_wire_exact (P : Prims) (hP : PrimLaws P) (bp : Profile) (c : Connection) (k : Keys) (hkl : KeyLens k)
    (hk : c.remoteSecrets .handshake = .ok (secretsOf P k)) (ha : (c.pnInfo .handshake).largestRemoteAck = none) (h : LongPacketHeader)
    (hp : h.isProtected = false) (pnB payload out : Bytes) (pn : U64) (fs : List Frame) (hw : HandshakeWire P k h pnB pn.toNat payload out)
    (hv : beNat pnB = pn.toNat) (hf : (deserializeFrames (makeResultStream payload)).1 = .ok fs) (s : Stream) :
    decodeNextPacket bp c (makeResultStream out ++ s) =
      (.ok (.handshake { header := h, packetNumber := pn, packetNumberBytes := pnB, packetPayload := fs }), s) ↔ pnB.length = 4 := by
  refine ⟨fun e => ?_, fun h4 => C53_four_bytes_partial P hP bp c k hkl hk ha h hp pnB payload out pn fs hw h4 hv hf s⟩
  have := handshake_short hP hk hkl.2.1 hp hw e
  obtain ⟨_, _, _, _, w, _⟩ := hw
  omega

/-- A connection of the toy instance with Handshake keys, and RFC Handshake packets for it. -/
def exHsConn : Connection :=
  { (exClient.run .debug exOps).2 with handshakePnInfo := { PnInfo.new with remoteTlsSecrets := some (secretsOf Spec.toy exKeys), localTlsSecrets := some (secretsOf Spec.toy exKeys) } }
def exHsHeader (n : Nat) : LongPacketHeader := ⟨BitVec.ofNat 8 (0xe0 + (n - 1)), 1, 8, ⟨0, 0x0102030405060708⟩, 2, ⟨0, 0x1122⟩, none, false⟩
def exHsMid (n : Nat) : Bytes := [0, 0, 0, 1, 8, 1, 2, 3, 4, 5, 6, 7, 8, 2, 0x11, 0x22, BitVec.ofNat 8 (n + 37)]
def exHsCt (n : Nat) : Bytes × Bytes :=
  (Spec.toy.gcmSeal exKeys.key (rfcNonce exKeys.iv [0, 0, 0, 0, 0, 0, 0, 1]) ([(exHsHeader n).headerByte] ++ exHsMid n ++ exPn n) exPayload).getD ([], [])
def exHsMask (n : Nat) : Bytes := (Spec.toy.aesEcb exKeys.hp (((exPn n ++ (exHsCt n).1 ++ (exHsCt n).2).drop 4).take 16)).getD []
def exHsOut (n : Nat) : Bytes :=
  [(exHsHeader n).headerByte ^^^ ((exHsMask n)[0]! &&& 0x0f)] ++ exHsMid n ++
    (exPn n).zipWith (· ^^^ ·) [(exHsMask n)[1]!, (exHsMask n)[2]!, (exHsMask n)[3]!, (exHsMask n)[4]!] ++ (exHsCt n).1 ++ (exHsCt n).2
theorem exHsOut_wire (n : Nat) (hn : n = 1 ∨ n = 2 ∨ n = 3 ∨ n = 4) : HandshakeWire Spec.toy exKeys (exHsHeader n) (exPn n) 1 exPayload (exHsOut n) := by
  refine ⟨(exHsMid n).take 16, [BitVec.ofNat 8 (n + 37)], ?_, ?_, ?_, ?_, ?_⟩
  · refine ⟨[0, 0, 0, 1], [1, 2, 3, 4, 5, 6, 7, 8], [0x11, 0x22], ?_⟩
    rcases hn with rfl | rfl | rfl | rfl <;> decide +kernel
  · rcases hn with rfl | rfl | rfl | rfl <;> decide +kernel
  · rcases hn with rfl | rfl | rfl | rfl <;> decide +kernel
  · refine ⟨0, ?_⟩
    rcases hn with rfl | rfl | rfl | rfl <;> decide +kernel
  · refine ⟨[0, 0, 0, 0, 0, 0, 0, 1], (exHsCt n).1, (exHsCt n).2, (exHsMask n)[0]!, (exHsMask n)[1]!, (exHsMask n)[2]!, (exHsMask n)[3]!, (exHsMask n)[4]!, (exHsMask n).drop 5, ?_⟩
    rcases hn with rfl | rfl | rfl | rfl <;> decide +kernel
theorem exKeys_lens : KeyLens exKeys := reachable_iv Spec.toy_laws exConn_reachable exKeys_ok

theorem C53_false : ¬ C53Statement := by
  intro h
  have e := h Spec.toy Spec.toy_laws .debug exHsConn exKeys exKeys_lens rfl rfl (exHsHeader 2) rfl (exPn 2) exPayload (exHsOut 2) 1
    (.ping :: List.replicate 20 .padding) (exHsOut_wire 2 (by decide)) (by decide +kernel) (by decide +kernel) []
  exact C53_short_never_decoded Spec.toy Spec.toy_laws .debug exHsConn exKeys exKeys_lens rfl (exHsHeader 2) rfl (exPn 2) exPayload (exHsOut 2) 1
    (exHsOut_wire 2 (by decide)) (by decide +kernel) [] _ e
/-- The four lengths, computed; and a packet built, serialized and decoded with these keys. -/
example : [1, 2, 3, 4].map (fun n => (decodeNextPacket .release exHsConn (makeResultStream (exHsOut n))).1.isOk) = [false, false, false, true] := by decide +kernel
example : (match (do
      let p ← (PacketHandshake.new .debug [.crypto ⟨0, 2, [5, 6]⟩] exHsConn).1
      let out ← p.serialize exHsConn
      let q ← (decodeNextPacket .debug exHsConn (makeResultStream out)).1
      pure (decide (q = .handshake p ∧ p.packetNumber = 1)) : Out Bool) with
    | .ok b => b
    | _ => false) = true := by decide +kernel

end QuicSea
