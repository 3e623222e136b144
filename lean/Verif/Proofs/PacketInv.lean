import Verif.Proofs.Packet
/-
What successful, failing and panicking decodes look like.
-/
namespace QuicSea
open Spec

theorem decodeNext_err {bp : Profile} {c : Connection} {s s' : Stream} {e : Error} (h : nextHeaderFromStream s = (.err e, s')) :
    (decodeNextPacket bp c s).1.isPanic = true := by
  unfold decodeNextPacket
  rw [Rd.bind_ok (Rd.cloned_apply s)]
  rw [Rd.bind_apply, Rd.lift_apply, h]
  rfl
/-- Which reader decodes a packet with a long header. -/
def longReader (bp : Profile) (c : Connection) : PacketType → Rd Packet
  | .handshake => do let res ← PacketHandshake.fromStream bp c; pure (.handshake res)
  | .initial => do let res ← PacketInitial.fromStream bp c; pure (.initial res)
  | .zeroRtt => do let res ← PacketZeroRtt.fromStream bp c; pure (.zeroRtt res)
  | .retry => do let res ← PacketRetry.fromStream; pure (.retry res)
  | .versionNegotiation => do let res ← PacketVersionNegotiation.fromStream; pure (.versionNegotiation res)
  | _ => Rd.lift (.panic "internal error: entered unreachable code")
theorem decodeNext_long {bp : Profile} {c : Connection} {s s' : Stream} {h : LongPacketHeader} (hh : nextHeaderFromStream s = (.ok (.long h), s')) :
    decodeNextPacket bp c s = longReader bp c (packetKind h.headerByte h.version) s := by
  obtain ⟨bs, _, _, h128, _⟩ := nextHeader_long_iff.mp hh
  unfold decodeNextPacket
  rw [Rd.bind_ok (Rd.cloned_apply s), Rd.bind_ok (a := .long h) (s' := s) (by rw [Rd.lift_apply, hh]; rfl)]
  dsimp only
  rw [Rd.bind_ok (a := packetKind h.headerByte h.version) (s' := s) (by rw [Rd.lift_apply, packetType_eq h h128])]
  cases packetKind h.headerByte h.version <;> rfl
theorem decodeNext_short {bp : Profile} {c : Connection} {s s' : Stream} {h : ShortPacketHeader} (hh : nextHeaderFromStream s = (.ok (.short h), s')) :
    decodeNextPacket bp c s = (do let res ← PacketOneRtt.fromStream bp c; pure (Packet.oneRtt res) : Rd Packet) s := by
  unfold decodeNextPacket
  rw [Rd.bind_ok (Rd.cloned_apply s), Rd.bind_ok (a := .short h) (s' := s) (by rw [Rd.lift_apply, hh]; rfl)]
/-- A successful decode had a readable header. -/
theorem decodeNext_header {bp : Profile} {c : Connection} {s s' : Stream} {p : Packet} (h : decodeNextPacket bp c s = (.ok p, s')) :
    ∃ x s1, nextHeaderFromStream s = (.ok x, s1) := by
  rcases e : nextHeaderFromStream s with ⟨o, s1⟩
  cases o with
  | ok x => exact ⟨x, s1, rfl⟩
  | err w => have := decodeNext_err (bp := bp) (c := c) e; rw [h] at this; cases this
  | panic w => have := nextHeader_noPanic s; rw [e] at this; cases this

theorem not_oneRtt {b : U8} (v : U32) (h : 128 ≤ b.toNat) : packetKind b v ≠ .oneRtt := by
  unfold packetKind
  rw [if_neg (by omega)]
  split
  · decide
  · split <;> decide

/-- Inversion: which reader produced a packet. -/
theorem decodeNext_initial {bp : Profile} {c : Connection} {s s' : Stream} {p : PacketInitial} (h : decodeNextPacket bp c s = (.ok (.initial p), s')) :
    ∃ x s1, nextHeaderFromStream s = (.ok (.long x), s1) ∧ packetKind x.headerByte x.version = .initial ∧
      PacketInitial.fromStream bp c s = (.ok p, s') := by
  obtain ⟨x, s1, hx⟩ := decodeNext_header h
  cases x with
  | short x =>
    rw [decodeNext_short hx] at h
    obtain ⟨_, _, _, h⟩ := Rd.bind_eq_ok h
    cases h
  | long x =>
    rw [decodeNext_long hx] at h
    refine ⟨x, s1, hx, ?_⟩
    cases hk : packetKind x.headerByte x.version <;> rw [hk] at h
    case initial =>
      obtain ⟨_, _, e, h⟩ := Rd.bind_eq_ok h
      cases h
      exact ⟨rfl, e⟩
    case oneRtt => cases h
    case statelessReset => cases h
    all_goals (obtain ⟨_, _, e, h⟩ := Rd.bind_eq_ok h; cases h)
theorem decodeNext_handshake {bp : Profile} {c : Connection} {s s' : Stream} {p : PacketHandshake} (h : decodeNextPacket bp c s = (.ok (.handshake p), s')) :
    ∃ x s1, nextHeaderFromStream s = (.ok (.long x), s1) ∧ packetKind x.headerByte x.version = .handshake ∧
      PacketHandshake.fromStream bp c s = (.ok p, s') := by
  obtain ⟨x, s1, hx⟩ := decodeNext_header h
  cases x with
  | short x =>
    rw [decodeNext_short hx] at h
    obtain ⟨_, _, _, h⟩ := Rd.bind_eq_ok h
    cases h
  | long x =>
    rw [decodeNext_long hx] at h
    refine ⟨x, s1, hx, ?_⟩
    cases hk : packetKind x.headerByte x.version <;> rw [hk] at h
    case handshake =>
      obtain ⟨_, _, e, h⟩ := Rd.bind_eq_ok h
      cases h
      exact ⟨rfl, e⟩
    case oneRtt => cases h
    case statelessReset => cases h
    all_goals (obtain ⟨_, _, e, h⟩ := Rd.bind_eq_ok h; cases h)
theorem decodeNext_zeroRtt {bp : Profile} {c : Connection} {s s' : Stream} {p : PacketZeroRtt} (h : decodeNextPacket bp c s = (.ok (.zeroRtt p), s')) :
    ∃ x s1, nextHeaderFromStream s = (.ok (.long x), s1) ∧ packetKind x.headerByte x.version = .zeroRtt ∧
      PacketZeroRtt.fromStream bp c s = (.ok p, s') := by
  obtain ⟨x, s1, hx⟩ := decodeNext_header h
  cases x with
  | short x =>
    rw [decodeNext_short hx] at h
    obtain ⟨_, _, _, h⟩ := Rd.bind_eq_ok h
    cases h
  | long x =>
    rw [decodeNext_long hx] at h
    refine ⟨x, s1, hx, ?_⟩
    cases hk : packetKind x.headerByte x.version <;> rw [hk] at h
    case zeroRtt =>
      obtain ⟨_, _, e, h⟩ := Rd.bind_eq_ok h
      cases h
      exact ⟨rfl, e⟩
    case oneRtt => cases h
    case statelessReset => cases h
    all_goals (obtain ⟨_, _, e, h⟩ := Rd.bind_eq_ok h; cases h)
theorem decodeNext_oneRtt {bp : Profile} {c : Connection} {s s' : Stream} {p : PacketOneRtt} (h : decodeNextPacket bp c s = (.ok (.oneRtt p), s')) :
    ∃ x s1, nextHeaderFromStream s = (.ok (.short x), s1) ∧ PacketOneRtt.fromStream bp c s = (.ok p, s') := by
  obtain ⟨x, s1, hx⟩ := decodeNext_header h
  cases x with
  | short x =>
    rw [decodeNext_short hx] at h
    obtain ⟨_, _, e, h⟩ := Rd.bind_eq_ok h
    cases h
    exact ⟨x, s1, hx, e⟩
  | long x =>
    rw [decodeNext_long hx] at h
    cases hk : packetKind x.headerByte x.version <;> rw [hk] at h
    case oneRtt => cases h
    case statelessReset => cases h
    all_goals (obtain ⟨_, _, e, h⟩ := Rd.bind_eq_ok h; cases h)

/-! ### authenticity -/

theorem take16 {smp : Bytes} {s s' : Stream} {x : Bytes} (h : makeResultStream x ++ s' = makeResultStream smp ++ s) (hl : smp.length = 16)
    (hx : 16 ≤ x.length) : smp = x.take 16 := by
  have e16 : ∀ y : Bytes, List.take 16 (makeResultStream y) = makeResultStream (y.take 16) := by intro y; simp [makeResultStream, List.map_take]
  have := congrArg (List.take 16) h
  rw [List.take_append_of_le_length (by simpa using hx), List.take_append_of_le_length (by simp [hl]), e16, e16,
    List.take_of_length_le (by omega : smp.length ≤ 16)] at this
  exact (makeResultStream_inj this).symm

/-- A successful tail in the terms of `Spec.Opened`, for any reader of the ciphertext that is sound. -/
theorem tail_opened {P : Prims} {bp : Profile} {c : Connection} {sp : PnSpace} {whole : Bool} {lenOf : Mask → Out Nat} {hdr : Mask → Out Bytes}
    {payload : Nat → Rd Bytes} {mid : Bytes} {k : Keys} (hk : c.remoteSecrets sp = .ok (secretsOf P k)) (hiv : k.iv.length = 12)
    (hpay : ∀ n, Sound (payload n) (fun a bs => bs = a)) {maskBits : U8} {first : Mask → U8} {hb : Bytes} (hhdr : ∀ m, hdr m = .ok (first m :: hb))
    (hlen : ∀ m, lenOf m = .ok ((first m).toNat % 4 + 1)) {w : U8} (hfirst : ∀ m : Mask, w = first m ^^^ (m.m0 &&& maskBits))
    {s s' : Stream} {m : Mask} {pnB : Bytes} {pn : U64} {fs : List Frame}
    (h : tail bp c sp whole lenOf hdr payload mid s = (.ok (m, pnB, pn, fs), s')) :
    ∃ bs skip pl, s = makeResultStream bs ++ s' ∧ Opened P k maskBits (first m) (hb ++ mid) pnB skip pn.toNat pl (w :: (hb ++ mid ++ bs)) ∧
      pnB.length = (first m).toNat % 4 + 1 ∧ payload ((first m).toNat % 4 + 1) (makeResultStream (bs.drop 4) ++ s') = (.ok (bs.drop 4), s') ∧
      c.reconstructRemotePn bp sp (if whole then (bs.take 4).zipWith (· ^^^ ·) (maskList m) else pnB) = .ok pn ∧
      (deserializeFrames (makeResultStream pl)).1 = .ok fs := by
  obtain ⟨pnP, s1, smp, s2, n, ct, tag, hb', pl, e1, e2, e3, e4, e5, e6, e7, e8, e9, e10, e11, e12, e13, e14⟩ := tail_inv hk h
  rw [hhdr m] at e12
  cases e12
  rw [hlen m] at e6
  cases e6
  obtain ⟨bs, f1, f2⟩ := hpay _ _ _ _ e10
  subst f2
  have hsm : smp = (ct ++ tag).take 16 := take16 (f1.symm.trans e3) e4 (by rw [List.length_append]; omega)
  obtain ⟨r, hr⟩ := hpMask_ok.mp e5
  have hml : (maskList m).length = 4 := rfl
  have hpn : pnB = (pnP.take ((first m).toNat % 4 + 1)).zipWith (· ^^^ ·) [m.m1, m.m2, m.m3, m.m4] := by
    rw [e8, List.take_zipWith]
    apply List.ext_getElem?
    intro i
    simp only [List.getElem?_zipWith, List.getElem?_take]
    by_cases hi : i < (first m).toNat % 4 + 1
    · simp [hi, maskList]
    · simp [hi]
  refine ⟨pnP ++ (ct ++ tag), pnP.drop ((first m).toNat % 4 + 1), pl, ?_, ?_, ?_, ?_, ?_, e14⟩
  · rw [e1, f1, makeResultStream_append pnP, List.append_assoc]
  · refine ⟨toBeBytes 8 pn, ct, tag, m.m0, m.m1, m.m2, m.m3, m.m4, r, pnP.take ((first m).toNat % 4 + 1), toBeBytes_length _ _,
      beNat_toBeBytes' 8 pn, e11, ?_, ?_, hpn, ?_, ?_, ?_⟩
    · rw [List.length_take]; omega
    · rw [List.take_append_drop]; exact e2
    · rw [← hsm]; exact hr
    · rw [← packetNonce_eq k.iv pn (by omega)]
      simpa using e13
    · rw [hfirst m]
      simp only [List.append_assoc, List.singleton_append]
      rw [← List.append_assoc (pnP.take _), List.take_append_drop]
      simp
  · rw [hpn, List.length_zipWith, List.length_take]
    show min (min _ pnP.length) 4 = _
    omega
  · rw [List.drop_left' e2, ← f1]; exact e10
  · rw [List.take_left' e2]; exact e9

theorem lenBytes_sound (bp : Profile) (L : U64) (n : Nat) : Sound (lenBytes bp L n) (fun a bs => bs = a) := by
  intro s a s' h
  unfold lenBytes at h
  obtain ⟨k, s1, e, h⟩ := Rd.bind_eq_ok h
  rw [Rd.lift_apply] at e
  obtain ⟨-, rfl⟩ := Prod.mk.inj e
  obtain ⟨bs, e, r, _⟩ := varBytes_sound _ _ _ _ h
  exact ⟨bs, e, r⟩

theorem removeProtection_long {x : LongPacketHeader} (hp : x.isProtected = true) (m : Mask) :
    x.removeProtection m = { x with headerByte := x.headerByte ^^^ (m.m0 &&& 0x0f), isProtected := false } := by
  unfold LongPacketHeader.removeProtection
  rw [hp]; rfl

/-- The header part common to the three long packet types. -/
theorem long_prefix {s s1 : Stream} {x : LongPacketHeader} (hx : nextHeaderFromStream s = (.ok (.long x), s1)) :
    ∃ hb, s = makeResultStream (x.headerByte :: hb) ++ s1 ∧ LongFields x (x.headerByte :: hb) ∧ 128 ≤ x.headerByte.toNat ∧
      x.isProtected = protectable (packetKind x.headerByte x.version) ∧
      u8FromDatagram s = (.ok x.headerByte, makeResultStream hb ++ s1) ∧
      LongPacketHeader.fromStream x.headerByte (makeResultStream hb ++ s1) = (.ok x, s1) := by
  obtain ⟨bs, e, hf, h128, hp⟩ := nextHeader_long_iff.mp hx
  have hf' := hf
  obtain ⟨vb, d, sc, rfl, _⟩ := hf'
  simp only [List.append_assoc, List.singleton_append] at e hf
  refine ⟨_, e, hf, h128, hp, ?_, long_reads hf h128 hp s1⟩
  rw [e]
  rfl

theorem unprot_fields {x : LongPacketHeader} {hb : Bytes} {b : U8} {pr : Bool} (hf : LongFields x (x.headerByte :: hb)) :
    LongFields { x with headerByte := b, isProtected := pr } (b :: hb) := by
  obtain ⟨vb, d, s, e, r⟩ := hf
  refine ⟨vb, d, s, ?_, r⟩
  simp only [List.cons_append, List.cons.injEq, true_and] at e
  rw [e]
  simp

theorem initial_opened {P : Prims} {bp : Profile} {c : Connection} {k : Keys} (hk : c.remoteSecrets .initial = .ok (secretsOf P k))
    (hiv : k.iv.length = 12) {s s' : Stream} {p : PacketInitial} (h : decodeNextPacket bp c s = (.ok (.initial p), s')) :
    ∃ out hb tl lb pl skip L, s = makeResultStream out ++ s' ∧ LongFields p.header (p.header.headerByte :: hb) ∧ p.header.isProtected = false ∧
      packetKind p.header.headerByte p.header.version = .initial ∧
      IsVarInt tl p.token.length ∧ IsVarInt lb L ∧
      Opened P k 0x0f p.header.headerByte (hb ++ tl ++ p.token ++ lb) p.packetNumberBytes skip p.packetNumber.toNat pl out ∧
      (p.packetNumberBytes.length ≤ L → out.length + p.packetNumberBytes.length = 1 + (hb ++ tl ++ p.token ++ lb).length + L + 4) ∧
      (L < p.packetNumberBytes.length → 2 ^ 64 ≤ out.length + 4) ∧
      c.reconstructRemotePn bp .initial p.packetNumberBytes = .ok p.packetNumber ∧
      (deserializeFrames (makeResultStream pl)).1 = .ok p.packetPayload := by
  obtain ⟨x, s1, hx, hkind, hm⟩ := decodeNext_initial h
  obtain ⟨hb, e0, hf, h128, hp, r1, r2⟩ := long_prefix hx
  have hv : x.version.toNat ≠ 0 := kind_version (by rw [hkind]; decide) (by rw [hkind]; decide)
  rw [hkind] at hp
  rw [initial_eq] at hm
  rw [Rd.bind_ok r1, Rd.bind_ok r2] at hm
  obtain ⟨⟨t, tl⟩, s2, g1, hm1⟩ := Rd.bind_eq_ok hm
  obtain ⟨token, s3, g2, hm2⟩ := Rd.bind_eq_ok hm1
  obtain ⟨⟨l, lb⟩, s4, g3, hm3⟩ := Rd.bind_eq_ok hm2
  obtain ⟨⟨m, pnB, pn, fs⟩, s5, g4, hm4⟩ := Rd.bind_eq_ok hm3
  obtain ⟨b1, a1, a2, a3⟩ := varIntWithBytes_sound _ _ _ g1
  obtain ⟨b2, c1, c2, c3⟩ := varBytes_sound _ _ _ _ g2
  obtain ⟨b3, d1, d2, d3⟩ := varIntWithBytes_sound _ _ _ g3
  dsimp only at a2 a3 d2 d3 g4 c3
  cases hm4
  subst c2
  subst tl lb
  have hrem := removeProtection_long (x := x) hp
  obtain ⟨bs, skip, pl, o1, o2, o3, o4, o5, o6⟩ := tail_opened (first := fun m => x.headerByte ^^^ (m.m0 &&& 0x0f)) (hb := hb) (w := x.headerByte)
    (maskBits := 0x0f) hk hiv (lenBytes_sound bp l)
    (by intro m; rw [hrem]; exact longFields_toBytes (h := { x with headerByte := x.headerByte ^^^ (m.m0 &&& 0x0f), isProtected := false }) hv (unprot_fields hf))
    (by intro m; rw [hrem]; exact pnLength_eq.mpr ⟨rfl, rfl⟩)
    (by intro m; rw [BitVec.xor_assoc, BitVec.xor_self, BitVec.xor_zero]) g4
  dsimp only at o2 o3 o4 ⊢
  rw [hrem m]
  dsimp only
  refine ⟨x.headerByte :: (hb ++ b1 ++ b2 ++ b3 ++ bs), hb, b1, b3, pl, skip, l.toNat, ?_, unprot_fields hf, rfl, ?_, ?_, d3, ?_, ?_, ?_, o5, o6⟩
  · rw [e0, a1, c1, d1, o1]; simp
  · rw [kind_xor]; exact hkind
  · rw [c3]; exact a3
  · simpa [List.append_assoc] using o2
  · intro hL
    rw [o3] at hL ⊢
    unfold lenBytes at o4
    obtain ⟨kk, s6, e6, e7⟩ := Rd.bind_eq_ok o4
    rw [Rd.lift_apply] at e6
    obtain ⟨e8, rfl⟩ := Prod.mk.inj e6
    unfold subUsize at e8
    rw [if_pos hL] at e8
    cases e8
    obtain ⟨b4, _, _, lb4⟩ := varBytes_sound _ _ _ _ e7
    rw [List.length_drop] at lb4
    obtain ⟨nb, ct, tag, m0, m1, m2, m3, m4, r, pnM, _, _, i3, _, i5, _, _, _, i9⟩ := o2
    have := congrArg List.length i9
    simp only [List.length_append, List.length_cons, List.length_nil] at this i5 ⊢
    omega
  · intro hL
    rw [o3] at hL
    unfold lenBytes at o4
    obtain ⟨kk, s6, e6, e7⟩ := Rd.bind_eq_ok o4
    rw [Rd.lift_apply] at e6
    obtain ⟨e8, rfl⟩ := Prod.mk.inj e6
    unfold subUsize at e8
    rw [if_neg (by omega)] at e8
    cases bp with
    | debug => cases e8
    | release =>
      cases e8
      obtain ⟨b4, _, _, lb4⟩ := varBytes_sound _ _ _ _ e7
      rw [List.length_drop] at lb4
      simp only [List.length_append, List.length_cons]
      have : (x.headerByte ^^^ (m.m0 &&& 0x0f)).toNat % 4 < 4 := Nat.mod_lt _ (by decide)
      omega

theorem handshake_opened {P : Prims} {bp : Profile} {c : Connection} {k : Keys} (hk : c.remoteSecrets .handshake = .ok (secretsOf P k))
    (hiv : k.iv.length = 12) {s s' : Stream} {p : PacketHandshake} (h : decodeNextPacket bp c s = (.ok (.handshake p), s')) :
    ∃ out hb lb pl skip L, s = makeResultStream out ++ s' ∧ LongFields p.header (p.header.headerByte :: hb) ∧ p.header.isProtected = false ∧
      packetKind p.header.headerByte p.header.version = .handshake ∧ IsVarInt lb L ∧
      Opened P k 0x0f p.header.headerByte (hb ++ lb) p.packetNumberBytes skip p.packetNumber.toNat pl out ∧
      (deserializeFrames (makeResultStream pl)).1 = .ok p.packetPayload := by
  obtain ⟨x, s1, hx, hkind, hm⟩ := decodeNext_handshake h
  obtain ⟨hb, e0, hf, h128, hp, r1, r2⟩ := long_prefix hx
  have hv : x.version.toNat ≠ 0 := kind_version (by rw [hkind]; decide) (by rw [hkind]; decide)
  rw [hkind] at hp
  rw [handshake_eq] at hm
  rw [Rd.bind_ok r1, Rd.bind_ok r2] at hm
  obtain ⟨⟨l, lb⟩, s4, g3, hm3⟩ := Rd.bind_eq_ok hm
  obtain ⟨⟨m, pnB, pn, fs⟩, s5, g4, hm4⟩ := Rd.bind_eq_ok hm3
  obtain ⟨b3, d1, d2, d3⟩ := varIntWithBytes_sound _ _ _ g3
  dsimp only at d2 d3 g4
  cases hm4
  subst lb
  have hrem := removeProtection_long (x := x) hp
  obtain ⟨bs, skip, pl, o1, o2, o3, o4, o5, o6⟩ := tail_opened (first := fun m => x.headerByte ^^^ (m.m0 &&& 0x0f)) (hb := hb) (w := x.headerByte)
    (maskBits := 0x0f) hk hiv (lenBytes_sound bp l)
    (by intro m; rw [hrem]; exact longFields_toBytes (h := { x with headerByte := x.headerByte ^^^ (m.m0 &&& 0x0f), isProtected := false }) hv (unprot_fields hf))
    (by intro m; rw [hrem]; exact pnLength_eq.mpr ⟨rfl, rfl⟩)
    (by intro m; rw [BitVec.xor_assoc, BitVec.xor_self, BitVec.xor_zero]) g4
  dsimp only at o2 o3 o4 ⊢
  rw [hrem m]
  dsimp only
  refine ⟨x.headerByte :: (hb ++ b3 ++ bs), hb, b3, pl, skip, l.toNat, ?_, unprot_fields hf, rfl, ?_, d3, ?_, o6⟩
  · rw [e0, d1, o1]; simp
  · rw [kind_xor]; exact hkind
  · simpa [List.append_assoc] using o2
theorem zeroRtt_opened {P : Prims} {bp : Profile} {c : Connection} {k : Keys} (hk : c.remoteSecrets .application = .ok (secretsOf P k))
    (hiv : k.iv.length = 12) {s s' : Stream} {p : PacketZeroRtt} (h : decodeNextPacket bp c s = (.ok (.zeroRtt p), s')) :
    ∃ out hb lb pl skip L, s = makeResultStream out ++ s' ∧ LongFields p.header (p.header.headerByte :: hb) ∧ p.header.isProtected = false ∧
      packetKind p.header.headerByte p.header.version = .zeroRtt ∧ IsVarInt lb L ∧
      Opened P k 0x0f p.header.headerByte (hb ++ lb) p.packetNumberBytes skip p.packetNumber.toNat pl out ∧
      (deserializeFrames (makeResultStream pl)).1 = .ok p.packetPayload := by
  obtain ⟨x, s1, hx, hkind, hm⟩ := decodeNext_zeroRtt h
  obtain ⟨hb, e0, hf, h128, hp, r1, r2⟩ := long_prefix hx
  have hv : x.version.toNat ≠ 0 := kind_version (by rw [hkind]; decide) (by rw [hkind]; decide)
  rw [hkind] at hp
  rw [zeroRtt_eq] at hm
  rw [Rd.bind_ok r1, Rd.bind_ok r2] at hm
  obtain ⟨⟨l, lb⟩, s4, g3, hm3⟩ := Rd.bind_eq_ok hm
  obtain ⟨⟨m, pnB, pn, fs⟩, s5, g4, hm4⟩ := Rd.bind_eq_ok hm3
  obtain ⟨b3, d1, d2, d3⟩ := varIntWithBytes_sound _ _ _ g3
  dsimp only at d2 d3 g4
  cases hm4
  subst lb
  have hrem := removeProtection_long (x := x) hp
  obtain ⟨bs, skip, pl, o1, o2, o3, o4, o5, o6⟩ := tail_opened (first := fun m => x.headerByte ^^^ (m.m0 &&& 0x0f)) (hb := hb) (w := x.headerByte)
    (maskBits := 0x0f) hk hiv (lenBytes_sound bp l)
    (by intro m; rw [hrem]; exact longFields_toBytes (h := { x with headerByte := x.headerByte ^^^ (m.m0 &&& 0x0f), isProtected := false }) hv (unprot_fields hf))
    (by intro m; rw [hrem]; exact pnLength_eq.mpr ⟨rfl, rfl⟩)
    (by intro m; rw [BitVec.xor_assoc, BitVec.xor_self, BitVec.xor_zero]) g4
  dsimp only at o2 o3 o4 ⊢
  rw [hrem m]
  dsimp only
  refine ⟨x.headerByte :: (hb ++ b3 ++ bs), hb, b3, pl, skip, l.toNat, ?_, unprot_fields hf, rfl, ?_, d3, ?_, o6⟩
  · rw [e0, d1, o1]; simp
  · rw [kind_xor]; exact hkind
  · simpa [List.append_assoc] using o2
theorem oneRtt_opened {P : Prims} {bp : Profile} {c : Connection} {k : Keys} (hk : c.remoteSecrets .application = .ok (secretsOf P k))
    (hiv : k.iv.length = 12) {s s' : Stream} {p : PacketOneRtt} (h : decodeNextPacket bp c s = (.ok (.oneRtt p), s')) :
    ∃ out hb pl skip, s = makeResultStream out ∧ s' = [] ∧ ShortFields p.header (p.header.headerByte :: hb) ∧ p.header.isProtected = false ∧
      Opened P k 0x1f p.header.headerByte hb p.packetNumberBytes skip p.packetNumber.toNat pl out ∧
      (deserializeFrames (makeResultStream pl)).1 = .ok p.packetPayload := by
  obtain ⟨x, s1, hx, hm⟩ := decodeNext_oneRtt h
  obtain ⟨bs0, e0, hf, h128, hp⟩ := nextHeader_short_iff.mp hx
  have hf' := hf
  obtain ⟨hb, rfl, l8, v8⟩ := hf'
  simp only [List.singleton_append] at e0 hf
  have r1 : u8FromDatagram s = (.ok x.headerByte, makeResultStream hb ++ s1) := by rw [e0]; rfl
  rw [oneRtt_eq] at hm
  rw [Rd.bind_ok r1, Rd.bind_ok (short_reads hf hp s1)] at hm
  obtain ⟨⟨m, pnB, pn, fs⟩, s5, g4, hm4⟩ := Rd.bind_eq_ok hm
  cases hm4
  have hrem : ∀ m, x.removeProtection m = { x with headerByte := x.headerByte ^^^ (m.m0 &&& 0x1f), isProtected := false } := by
    intro m
    unfold ShortPacketHeader.removeProtection
    rw [hp]; rfl
  have hbytes : x.destinationConnectionId.toVarBytes 8 = .ok hb := by
    obtain ⟨b, e, l, v⟩ := toVarBytes_spec x.destinationConnectionId 8 (by decide)
    rw [e]
    congr 1
    refine beNat_inj (by omega) ?_
    rw [v, ← v8]
    refine Nat.mod_eq_of_lt ?_
    have := beNat_lt hb
    rw [l8] at this
    exact this
  obtain ⟨bs, skip, pl, o1, o2, o3, o4, o5, o6⟩ := tail_opened (first := fun m => x.headerByte ^^^ (m.m0 &&& 0x1f)) (hb := hb) (w := x.headerByte)
    (maskBits := 0x1f) hk hiv (fun _ => allBytes_sound)
    (by intro m; rw [hrem]; unfold ShortPacketHeader.toBytes; rw [hbytes]; rfl)
    (by
      intro m; rw [hrem]
      have k : ∀ b : U8, (b &&& 0x03).toNat = b.toNat % 4 := by decide +kernel
      unfold ShortPacketHeader.packetNumberLength
      rw [k]; rfl)
    (by intro m; rw [BitVec.xor_assoc, BitVec.xor_self, BitVec.xor_zero]) g4
  dsimp only at o2 o3 o4 ⊢
  rw [hrem m]
  dsimp only
  have hs5 := (allBytes_ok o4).2
  subst hs5
  refine ⟨x.headerByte :: (hb ++ bs), hb, pl, skip, ?_, rfl, ⟨hb, rfl, l8, v8⟩, rfl, ?_, o6⟩
  · rw [e0, o1]; simp
  · simpa [List.append_assoc] using o2

end QuicSea
