import Verif.Spec.Header
import Verif.Proofs.FrameRef
/-
Packet headers.
-/
namespace QuicSea
open Spec (beNat cidVal packetKind protectable LongFields ShortFields)

theorem typeBits_kind : ∀ b : U8, 128 ≤ b.toNat →
    (if (b &&& (((1 : U8) <<< 6) - 1)) >>> 4 = 0x00 then Out.ok PacketType.initial
    else if (b &&& (((1 : U8) <<< 6) - 1)) >>> 4 = 0x01 then .ok .zeroRtt
    else if (b &&& (((1 : U8) <<< 6) - 1)) >>> 4 = 0x02 then .ok .handshake
    else if (b &&& (((1 : U8) <<< 6) - 1)) >>> 4 = 0x03 then .ok .retry
    else .panic "internal error: entered unreachable code") = .ok (packetKind b 1) := by decide +kernel
theorem packetKind_nonzero (b : U8) (v : U32) (hv : v.toNat ≠ 0) : packetKind b v = packetKind b 1 := by
  unfold packetKind
  rw [if_neg hv, if_neg (show ¬ (1 : U32).toNat = 0 by decide)]
theorem packetType_eq (h : LongPacketHeader) (hb : 128 ≤ h.headerByte.toNat) :
    h.packetType = .ok (packetKind h.headerByte h.version) := by
  unfold LongPacketHeader.packetType
  by_cases hv : h.version = 0
  · rw [if_pos (show h.version = VERSION_NEGOTIATION_VERSION_VALUE from hv)]
    unfold packetKind
    rw [if_neg (by omega : ¬ h.headerByte.toNat < 128), if_pos (by rw [hv]; rfl)]
  · have hv' : h.version.toNat ≠ 0 := fun e => hv (BitVec.eq_of_toNat_eq e)
    rw [if_neg (show ¬ h.version = VERSION_NEGOTIATION_VERSION_VALUE from hv), packetKind_nonzero _ _ hv']
    exact typeBits_kind _ hb
theorem typeBits_or : ∀ b : U8, (b ||| (0x80 : U8)) &&& (((1 : U8) <<< 6) - (1 : U8)) = b &&& (((1 : U8) <<< 6) - (1 : U8)) ∧
    128 ≤ (b ||| (0x80 : U8)).toNat := by
  decide +kernel
theorem packetType_eq' (h : LongPacketHeader) :
    h.packetType = .ok (packetKind (h.headerByte ||| 0x80) h.version) := by
  have h1 := packetType_eq { h with headerByte := h.headerByte ||| 0x80 } (typeBits_or _).2
  refine Eq.trans ?_ h1
  unfold LongPacketHeader.packetType
  have e := (typeBits_or h.headerByte).1
  dsimp only at e ⊢
  rw [e]
theorem packetType_noPanic (h : LongPacketHeader) : (h.packetType).isPanic = false := by rw [packetType_eq']; rfl

theorem u32_zero {v : U32} : v.toNat = 0 ↔ v = VERSION_NEGOTIATION_VERSION_VALUE :=
  ⟨fun e => BitVec.eq_of_toNat_eq e, fun e => by rw [e]; rfl⟩

abbrev HeaderIds := Option VnFields × U8 × U160 × U8 × U160

/-- The id part of `LongPacketHeader.fromStream`. -/
def idsFromStream (version : U32) : Rd HeaderIds :=
  if !(decide (version = VERSION_NEGOTIATION_VERSION_VALUE)) then do
    let dcidLen ← u8FromDatagram
    if dcidLen.toNat > 20 then Rd.fail (.internalError "invalid destination connection id length")
    else do
      let dcid ← varU160FromStream dcidLen
      let scidLen ← u8FromDatagram
      if scidLen.toNat > 20 then Rd.fail (.internalError "invalid source connection id length")
      else do
        let scid ← varU160FromStream scidLen
        pure (none, dcidLen, dcid, scidLen, scid)
  else do
    let dcidLen ← u8FromDatagram
    let destinationConnectionId ← varBytesFromStream dcidLen.toNat
    let scidLen ← u8FromDatagram
    let sourceConnectionId ← varBytesFromStream scidLen.toNat
    pure (some { destinationConnectionId, sourceConnectionId }, dcidLen, U160.zero, scidLen, U160.zero)

/-- The rest of it. -/
def mkLong (headerByte : U8) (version : U32) (x : HeaderIds) (isProtected : Bool) : LongPacketHeader :=
  { headerByte, version, destinationConnectionIdLength := x.2.1, destinationConnectionId := x.2.2.1,
    sourceConnectionIdLength := x.2.2.2.1, sourceConnectionId := x.2.2.2.2, versionNegotiation := x.1, isProtected }
theorem long_eq (headerByte : U8) : LongPacketHeader.fromStream headerByte = (do
    let version ← u32FromDatagram
    let x ← idsFromStream version
    let t ← Rd.lift (mkLong headerByte version x true).packetType
    pure (mkLong headerByte version x (match t with
      | .retry => false
      | .versionNegotiation => false
      | _ => true))) := rfl
theorem long_eq' (headerByte : U8) (hb : 128 ≤ headerByte.toNat) : LongPacketHeader.fromStream headerByte = (do
    let version ← u32FromDatagram
    let x ← idsFromStream version
    pure (mkLong headerByte version x (protectable (packetKind headerByte version)))) := by
  rw [long_eq]
  congr 1
  funext version
  congr 1
  funext x
  rw [packetType_eq _ hb]
  show (fun s => _) = (fun s => _)
  funext s
  show ((pure _ : Rd LongPacketHeader) s) = (pure _ : Rd LongPacketHeader) s
  congr 2
def IdsWire (version : U32) (x : HeaderIds) (bs : Bytes) : Prop :=
  ∃ d s, bs = [x.2.1] ++ d ++ [x.2.2.2.1] ++ s ∧ d.length = x.2.1.toNat ∧ s.length = x.2.2.2.1.toNat ∧
    if version.toNat = 0 then x.1 = some ⟨d, s⟩ ∧ cidVal x.2.2.1 = 0 ∧ cidVal x.2.2.2.2 = 0
    else x.1 = none ∧ d.length ≤ 20 ∧ s.length ≤ 20 ∧ beNat d = cidVal x.2.2.1 ∧ beNat s = cidVal x.2.2.2.2

theorem cidVal_zero_iff {x : U160} : cidVal x = 0 ↔ x = U160.zero :=
  by
  have h0 : cidVal U160.zero = 0 := by decide +kernel
  exact ⟨fun h => cidVal_inj (h.trans h0.symm), fun h => h ▸ h0⟩

theorem ids_reads {version : U32} {x : HeaderIds} {bs : Bytes} (h : IdsWire version x bs) : Reads (idsFromStream version) bs x := by
  obtain ⟨vn, dl, dc, sl, sc⟩ := x
  obtain ⟨d, s, rfl, hd, hs, hif⟩ := h
  dsimp only at *
  unfold idsFromStream
  by_cases h0 : version.toNat = 0
  · rw [if_pos h0] at hif
    obtain ⟨rfl, e1, e2⟩ := hif
    rw [if_neg (by simp [u32_zero.mp h0]), cidVal_zero_iff.mp e1, cidVal_zero_iff.mp e2]
    refine Reads.bind' (u8_reads dl) (b2 := d ++ ([sl] ++ s)) ?_ (by simp)
    refine Reads.bind' (varBytes_reads' hd) ?_ rfl
    refine Reads.bind' (u8_reads sl) ?_ rfl
    refine Reads.bind' (varBytes_reads' hs) (Reads.pure _) (by simp)
  · rw [if_neg h0] at hif
    obtain ⟨rfl, h1, h2, e1, e2⟩ := hif
    have h0' : ¬ version = VERSION_NEGOTIATION_VERSION_VALUE := fun e => h0 (u32_zero.mpr e)
    rw [if_pos (by simp [h0'])]
    refine Reads.bind' (u8_reads dl) (b2 := d ++ ([sl] ++ s)) ?_ (by simp)
    rw [if_neg (by omega)]
    refine Reads.bind' (cid_reads hd (by omega) e1.symm) ?_ rfl
    refine Reads.bind' (u8_reads sl) ?_ rfl
    rw [if_neg (by omega)]
    refine Reads.bind' (cid_reads hs (by omega) e2.symm) (Reads.pure _) (by simp)

theorem ids_sound (version : U32) : Sound (idsFromStream version) (IdsWire version) := by
  intro st x st' h
  unfold idsFromStream at h
  by_cases h0 : version.toNat = 0
  · rw [if_neg (by simp [u32_zero.mp h0])] at h
    obtain ⟨dl, s1, h1, h⟩ := Rd.bind_eq_ok h
    obtain ⟨d, s2, h2, h⟩ := Rd.bind_eq_ok h
    obtain ⟨sl, s3, h3, h⟩ := Rd.bind_eq_ok h
    obtain ⟨sc, s4, h4, h⟩ := Rd.bind_eq_ok h
    obtain ⟨_, e1, rfl⟩ := u8_sound _ _ _ h1
    obtain ⟨b2, e2, eb2, l2⟩ := varBytes_sound _ _ _ _ h2
    subst b2
    obtain ⟨_, e3, rfl⟩ := u8_sound _ _ _ h3
    obtain ⟨b4, e4, eb4, l4⟩ := varBytes_sound _ _ _ _ h4
    subst b4
    cases h
    refine ⟨[dl] ++ d ++ [sl] ++ sc, by rw [e1, e2, e3, e4]; simp, d, sc, rfl, l2, l4, ?_⟩
    rw [if_pos h0]
    exact ⟨rfl, cidVal_zero_iff.mpr rfl, cidVal_zero_iff.mpr rfl⟩
  · have h0' : ¬ version = VERSION_NEGOTIATION_VERSION_VALUE := fun e => h0 (u32_zero.mpr e)
    rw [if_pos (by simp [h0'])] at h
    obtain ⟨dl, s1, h1, h⟩ := Rd.bind_eq_ok h
    split at h
    · cases h
    obtain ⟨d, s2, h2, h⟩ := Rd.bind_eq_ok h
    obtain ⟨sl, s3, h3, h⟩ := Rd.bind_eq_ok h
    split at h
    · cases h
    obtain ⟨sc, s4, h4, h⟩ := Rd.bind_eq_ok h
    obtain ⟨_, e1, rfl⟩ := u8_sound _ _ _ h1
    obtain ⟨bd, e2, l2, v2⟩ := cid_sound _ (by omega) _ _ _ h2
    obtain ⟨_, e3, rfl⟩ := u8_sound _ _ _ h3
    obtain ⟨bc, e4, l4, v4⟩ := cid_sound _ (by omega) _ _ _ h4
    cases h
    refine ⟨[dl] ++ bd ++ [sl] ++ bc, by rw [e1, e2, e3, e4]; simp, bd, bc, rfl, l2, l4, ?_⟩
    rw [if_neg h0]
    exact ⟨rfl, by omega, by omega, v2.symm, v4.symm⟩

theorem ids_noPanic (v : U32) : NoPanic (idsFromStream v) := by
  unfold idsFromStream
  repeat' first
    | refine NoPanic.ite ?_ ?_
    | exact NoPanic.pure _
    | exact NoPanic.fail _
    | refine u8_noPanic.bind fun _ => ?_
    | refine (cid_noPanic _).bind fun _ => ?_
    | refine (varBytes_noPanic _).bind fun _ => ?_
theorem ids_shrinks (v : U32) : Shrinks (idsFromStream v) := by
  unfold idsFromStream
  repeat' first
    | refine Shrinks.ite ?_ ?_
    | exact Shrinks.pure _
    | exact Shrinks.fail _
    | refine u8_shrinks.bind fun _ => ?_
    | refine (cid_shrinks _).bind fun _ => ?_
    | refine (varBytes_shrinks _).bind fun _ => ?_
theorem long_noPanic (hb : U8) : NoPanic (LongPacketHeader.fromStream hb) := by
  rw [long_eq]
  refine (uint_noPanic 4 _).bind fun v => ?_
  refine (ids_noPanic v).bind fun x => ?_
  exact (NoPanic.lift (packetType_noPanic _)).bind fun _ => NoPanic.pure _
theorem long_shrinks (hb : U8) : Shrinks (LongPacketHeader.fromStream hb) := by
  rw [long_eq]
  refine (uint_shrinks 4 _).bind fun v => ?_
  refine (ids_shrinks v).bind fun x => ?_
  exact (Shrinks.lift _).bind fun _ => Shrinks.pure _
theorem short_noPanic (hb : U8) : NoPanic (ShortPacketHeader.fromStream hb) :=
  ((uint_noPanic 8 _).bind fun _ => NoPanic.pure _).bind fun _ => NoPanic.pure _
theorem short_shrinks (hb : U8) : Shrinks (ShortPacketHeader.fromStream hb) :=
  ((uint_shrinks 8 _).bind fun _ => Shrinks.pure _).bind fun _ => Shrinks.pure _
theorem nextHeader_noPanic : NoPanic nextHeaderFromStream := by
  refine (nextOr_noPanic _).bind fun b => NoPanic.ite ?_ ?_
  · exact (long_noPanic b).bind fun _ => NoPanic.pure _
  · exact (short_noPanic b).bind fun _ => NoPanic.pure _
theorem nextHeader_shrinks : Shrinks nextHeaderFromStream := by
  refine (nextOr_shrinks _).bind fun b => Shrinks.ite ?_ ?_
  · exact (long_shrinks b).bind fun _ => Shrinks.pure _
  · exact (short_shrinks b).bind fun _ => Shrinks.pure _

/-- Parsing a long header, completeness. -/
theorem long_reads {h : LongPacketHeader} {bs : Bytes} (hf : LongFields h (h.headerByte :: bs)) (hb : 128 ≤ h.headerByte.toNat)
    (hp : h.isProtected = protectable (packetKind h.headerByte h.version)) : Reads (LongPacketHeader.fromStream h.headerByte) bs h := by
  obtain ⟨vb, d, s, e, hvl, hv, hd, hs, hif⟩ := hf
  simp only [List.cons_append, List.nil_append, List.append_assoc, List.cons.injEq, true_and] at e
  subst e
  rw [long_eq' _ hb]
  refine Reads.bind' (uint_reads' (n := 4) _ (by decide) hvl hv) ?_ rfl
  refine Reads.bind' (ids_reads (x := (h.versionNegotiation, h.destinationConnectionIdLength, h.destinationConnectionId,
    h.sourceConnectionIdLength, h.sourceConnectionId)) ⟨d, s, ?_, hd, hs, hif⟩) ?_ (List.append_nil _).symm
  · simp
  · have : mkLong h.headerByte h.version (h.versionNegotiation, h.destinationConnectionIdLength, h.destinationConnectionId,
        h.sourceConnectionIdLength, h.sourceConnectionId) (protectable (packetKind h.headerByte h.version)) = h := by
      rw [← hp]; rfl
    rw [this]
    exact Reads.pure h
/-- Parsing a long header, soundness. -/
theorem long_sound (hb : U8) (h128 : 128 ≤ hb.toNat) : Sound (LongPacketHeader.fromStream hb) (fun h bs => h.headerByte = hb ∧
    LongFields h (hb :: bs) ∧ h.isProtected = protectable (packetKind hb h.version)) := by
  rw [long_eq' _ h128]
  intro st h st' hm
  obtain ⟨v, s1, h1, hm⟩ := Rd.bind_eq_ok hm
  obtain ⟨x, s2, h2, hm⟩ := Rd.bind_eq_ok hm
  obtain ⟨vb, e1, l1, v1⟩ := uint_sound' 4 (by decide) _ _ _ _ h1
  obtain ⟨ib, e2, d, s, rfl, hd, hs, hif⟩ := ids_sound _ _ _ _ h2
  cases hm
  refine ⟨vb ++ ([x.2.1] ++ d ++ [x.2.2.2.1] ++ s), by rw [e1, e2]; simp, rfl, ⟨vb, d, s, ?_, l1, v1, hd, hs, hif⟩, rfl⟩
  simp [mkLong]

theorem formBit : ∀ b : U8, b &&& 0x80 = 0x80 ↔ 128 ≤ b.toNat := by decide +kernel

theorem cidVal_u64 (v : U64) : cidVal { idx0 := 0, idx1 := v.setWidth 128 } = v.toNat := cidVal_ofU64 v
theorem short_reads {h : ShortPacketHeader} {bs : Bytes} (hf : ShortFields h (h.headerByte :: bs)) (hp : h.isProtected = true) :
    Reads (ShortPacketHeader.fromStream h.headerByte) bs h := by
  obtain ⟨d, e, hl, hv⟩ := hf
  simp only [List.cons_append, List.nil_append, List.cons.injEq, true_and] at e
  subst e
  rename Bytes => d
  have hlt : beNat d < 2 ^ 64 := by have := beNat_lt d; rw [hl] at this; exact this
  have e : (BitVec.ofNat (8 * 8) (beNat d)).toNat = beNat d := by rw [BitVec.toNat_ofNat]; exact Nat.mod_eq_of_lt hlt
  refine Reads.bind' (a := h.destinationConnectionId) (Reads.bind' (uint_reads' (n := 8) (x := BitVec.ofNat 64 (beNat d)) _ (by decide) hl e.symm)
    ?_ (List.append_nil _).symm) ?_ (List.append_nil _).symm
  · have : h.destinationConnectionId = { idx0 := 0, idx1 := (BitVec.ofNat 64 (beNat d)).setWidth 128 } := by
      apply cidVal_inj
      rw [cidVal_u64, ← hv]
      exact e.symm
    rw [this]
    exact Reads.pure _
  · have : h = { headerByte := h.headerByte, destinationConnectionId := h.destinationConnectionId, isProtected := true } := by
      rw [← hp]
    rw [← this]
    exact Reads.pure _
theorem short_sound (hb : U8) : Sound (ShortPacketHeader.fromStream hb) (fun h bs => h.headerByte = hb ∧ ShortFields h (hb :: bs) ∧
    h.isProtected = true) := by
  intro st h st' hm
  obtain ⟨c, s1, h1, hm⟩ := Rd.bind_eq_ok hm
  obtain ⟨v, s2, h2, h1⟩ := Rd.bind_eq_ok h1
  obtain ⟨vb, e1, l1, v1⟩ := uint_sound' 8 (by decide) _ _ _ _ h2
  cases h1
  cases hm
  refine ⟨vb, e1, rfl, ⟨vb, rfl, l1, ?_⟩, rfl⟩
  show _ = cidVal { idx0 := 0, idx1 := v.setWidth 128 }
  rw [cidVal_u64]
  exact v1

theorem nextHeader_long_iff {s s' : Stream} {h : LongPacketHeader} : nextHeaderFromStream s = (.ok (.long h), s') ↔
    ∃ bs, s = makeResultStream bs ++ s' ∧ LongFields h bs ∧ 128 ≤ h.headerByte.toNat ∧
      h.isProtected = protectable (packetKind h.headerByte h.version) := by
  constructor
  · intro hm
    obtain ⟨b, s1, h1, hm⟩ := Rd.bind_eq_ok hm
    obtain ⟨_, e1, rfl⟩ := nextOr_sound _ _ _ _ h1
    split at hm
    · rename_i hb
      obtain ⟨h', s2, h2, hm⟩ := Rd.bind_eq_ok hm
      obtain ⟨bs, e2, eb, hf, hp⟩ := long_sound b ((formBit b).mp hb) _ _ _ h2
      cases hm
      exact ⟨b :: bs, by rw [e1, e2]; simp, hf, by rw [eb]; exact (formBit b).mp hb, by rw [eb]; exact hp⟩
    · obtain ⟨h', s2, h2, hm⟩ := Rd.bind_eq_ok hm
      cases hm
  · rintro ⟨bs, rfl, hf, hb, hp⟩
    have hf' := hf
    obtain ⟨vb, d, s, rfl, _⟩ := hf'
    simp only [List.cons_append, List.nil_append, List.append_assoc] at hf ⊢
    have := long_reads hf hb hp
    unfold nextHeaderFromStream
    refine Eq.trans (Rd.bind_ok (nextOr_reads _ h.headerByte _)) ?_
    rw [if_pos ((formBit _).mpr hb)]
    exact Rd.bind_ok (this s')
theorem nextHeader_short_iff {s s' : Stream} {h : ShortPacketHeader} : nextHeaderFromStream s = (.ok (.short h), s') ↔
    ∃ bs, s = makeResultStream bs ++ s' ∧ ShortFields h bs ∧ h.headerByte.toNat < 128 ∧ h.isProtected = true := by
  constructor
  · intro hm
    obtain ⟨b, s1, h1, hm⟩ := Rd.bind_eq_ok hm
    obtain ⟨_, e1, rfl⟩ := nextOr_sound _ _ _ _ h1
    split at hm
    · obtain ⟨h', s2, h2, hm⟩ := Rd.bind_eq_ok hm
      cases hm
    · rename_i hb
      obtain ⟨h', s2, h2, hm⟩ := Rd.bind_eq_ok hm
      obtain ⟨bs, e2, eb, hf, hp⟩ := short_sound b _ _ _ h2
      cases hm
      refine ⟨b :: bs, by rw [e1, e2]; simp, hf, ?_, hp⟩
      rw [eb]
      exact Nat.not_le.mp fun hle => hb ((formBit b).mpr hle)
  · rintro ⟨bs, rfl, hf, hb, hp⟩
    have hf' := hf
    obtain ⟨d, rfl, _⟩ := hf'
    have := short_reads hf hp
    unfold nextHeaderFromStream
    refine Eq.trans (Rd.bind_ok (nextOr_reads _ h.headerByte _)) ?_
    rw [if_neg (fun e => by have := (formBit _).mp e; omega)]
    exact Rd.bind_ok (this s')

/-- Writing a long header. -/
theorem long_toBytes_fields {h : LongPacketHeader} (h0 : h.version.toNat ≠ 0) (hvn : h.versionNegotiation = none)
    (hd : h.destinationConnectionIdLength.toNat ≤ 20) (hs : h.sourceConnectionIdLength.toNat ≤ 20)
    (fd : cidVal h.destinationConnectionId < 256 ^ h.destinationConnectionIdLength.toNat)
    (fs : cidVal h.sourceConnectionId < 256 ^ h.sourceConnectionIdLength.toNat) :
    ∃ bs, h.toBytes = .ok bs ∧ LongFields h bs := by
  obtain ⟨d, ed, ld, vd⟩ := toVarBytes_spec h.destinationConnectionId _ hd
  obtain ⟨s, es, ls, vs⟩ := toVarBytes_spec h.sourceConnectionId _ hs
  refine ⟨[h.headerByte] ++ toBeBytes 4 h.version ++ [h.destinationConnectionIdLength] ++ d ++ [h.sourceConnectionIdLength] ++ s, ?_,
    toBeBytes 4 h.version, d, s, rfl, ?_, ?_, ld, ls, ?_⟩
  · unfold LongPacketHeader.toBytes
    rw [ed, es]
    rfl
  · exact toBeBytes_length 4 _
  · exact beNat_toBeBytes' 4 h.version
  · rw [if_neg h0]
    refine ⟨hvn, by omega, by omega, ?_, ?_⟩
    · rw [vd]; exact Nat.mod_eq_of_lt fd
    · rw [vs]; exact Nat.mod_eq_of_lt fs
/-- The bytes of a long header are determined by the header. -/
theorem longFields_inj {h : LongPacketHeader} {a b : Bytes} (h1 : LongFields h a) (h2 : LongFields h b) : a = b := by
  obtain ⟨v1, d1, s1, rfl, l1, e1, ld1, ls1, i1⟩ := h1
  obtain ⟨v2, d2, s2, rfl, l2, e2, ld2, ls2, i2⟩ := h2
  have : v1 = v2 := beNat_inj (by omega) (by omega)
  subst this
  by_cases h0 : h.version.toNat = 0
  · rw [if_pos h0] at i1 i2
    have := i1.1.symm.trans i2.1
    injection this with this
    injection this with h1 h2
    rw [h1, h2]
  · rw [if_neg h0] at i1 i2
    rw [beNat_inj (a := d1) (b := d2) (by omega) (by omega), beNat_inj (a := s1) (b := s2) (by omega) (by omega)]

end QuicSea
