import Verif.Proofs.Header
import Verif.Props.Fixed
/-
Properties C22-C25: packet headers.
-/
namespace QuicSea
open Spec (beNat cidVal packetKind protectable LongFields ShortFields)

/-! ## C22 -/

theorem xor_xor (a b : U8) : a ^^^ b ^^^ b = a := by rw [BitVec.xor_assoc]; simp

/-- C22. Adding then removing protection with the same mask restores a long header; removing then adding too. -/
theorem C22_long_reversible (h : LongPacketHeader) (m : Mask) :
    (h.isProtected = false → (h.addProtection m).removeProtection m = h) ∧
    (h.isProtected = true → (h.removeProtection m).addProtection m = h) := by
  constructor <;> intro hp <;> simp [LongPacketHeader.addProtection, LongPacketHeader.removeProtection, hp, xor_xor] <;>
    (cases h; simp_all)
theorem C22_short_reversible (h : ShortPacketHeader) (m : Mask) :
    (h.isProtected = false → (h.addProtection m).removeProtection m = h) ∧
    (h.isProtected = true → (h.removeProtection m).addProtection m = h) := by
  constructor <;> intro hp <;> simp [ShortPacketHeader.addProtection, ShortPacketHeader.removeProtection, hp, xor_xor] <;>
    (cases h; simp_all)

theorem mask4_bit (b m : U8) (i : Nat) : (b ^^^ (m &&& 0x0f)).getLsbD i = (b.getLsbD i != (m.getLsbD i && decide (i < 4))) := by
  rw [BitVec.getLsbD_xor, BitVec.getLsbD_and]
  by_cases h : i < 8
  · have : ∀ j : Fin 8, (0x0f : U8).getLsbD j.val = decide (j.val < 4) := by decide
    rw [this ⟨i, h⟩]
  · rw [BitVec.getLsbD_of_ge _ _ (by omega : 8 ≤ i), BitVec.getLsbD_of_ge _ _ (by omega : 8 ≤ i)]; simp
theorem mask5_bit (b m : U8) (i : Nat) : (b ^^^ (m &&& 0x1f)).getLsbD i = (b.getLsbD i != (m.getLsbD i && decide (i < 5))) := by
  rw [BitVec.getLsbD_xor, BitVec.getLsbD_and]
  by_cases h : i < 8
  · have : ∀ j : Fin 8, (0x1f : U8).getLsbD j.val = decide (j.val < 5) := by decide
    rw [this ⟨i, h⟩]
  · rw [BitVec.getLsbD_of_ge _ _ (by omega : 8 ≤ i), BitVec.getLsbD_of_ge _ _ (by omega : 8 ≤ i)]; simp

/-- C22. Protection flips, in the first byte, exactly those of the low 4 bits which the first mask byte has set (RFC 9001 section 5.4.1), and
nothing else in the header but the protection flag. -/
theorem C22_long_bits (h : LongPacketHeader) (m : Mask) (hp : h.isProtected = false) :
    (∀ i, (h.addProtection m).headerByte.getLsbD i = (h.headerByte.getLsbD i != (m.m0.getLsbD i && decide (i < 4)))) ∧
    h.addProtection m = { h with headerByte := (h.addProtection m).headerByte, isProtected := true } := by
  simp only [LongPacketHeader.addProtection, hp, Bool.not_false, if_true]
  exact ⟨fun i => mask4_bit _ _ i, trivial⟩
/-- C22, short header: exactly the low 5 bits. -/
theorem C22_short_bits (h : ShortPacketHeader) (m : Mask) (hp : h.isProtected = false) :
    (∀ i, (h.addProtection m).headerByte.getLsbD i = (h.headerByte.getLsbD i != (m.m0.getLsbD i && decide (i < 5)))) ∧
    h.addProtection m = { h with headerByte := (h.addProtection m).headerByte, isProtected := true } := by
  simp only [ShortPacketHeader.addProtection, hp, Bool.not_false, if_true]
  exact ⟨fun i => mask5_bit _ _ i, trivial⟩
/-- C22. Form bit, fixed bit and long packet type never change, and nor does the header kind. -/
theorem C22_type_preserved (h : LongPacketHeader) (m : Mask) :
    (h.addProtection m).headerByte.toNat / 16 = h.headerByte.toNat / 16 ∧
    (h.removeProtection m).headerByte.toNat / 16 = h.headerByte.toNat / 16 ∧
    (h.addProtection m).packetType = h.packetType ∧ (h.removeProtection m).packetType = h.packetType := by
  have k : ∀ b x : U8, (b ^^^ (x &&& (0x0f : U8))).toNat / 16 = b.toNat / 16 := by
    intro b x
    have : ∀ y : U8, y.toNat / 16 = (y >>> 4).toNat := by decide +kernel
    rw [this, this]
    congr 1
    have e : ∀ z : U8, (z &&& 0x0f) >>> 4 = 0#8 := by decide +kernel
    rw [BitVec.ushiftRight_xor_distrib, e]; simp
  have kt : ∀ b x : U8, ((b ^^^ (x &&& (0x0f : U8))) &&& (((1 : U8) <<< 6) - (1 : U8))) >>> 4 = (b &&& (((1 : U8) <<< 6) - (1 : U8))) >>> 4 := by
    intro b x
    have : ∀ y : U8, (y &&& (((1 : U8) <<< 6) - (1 : U8))) >>> 4 = BitVec.ofNat 8 (y.toNat / 16 % 4) := by decide +kernel
    rw [this, this, k]
  refine ⟨?_, ?_, ?_, ?_⟩
  · unfold LongPacketHeader.addProtection; split
    · exact k _ _
    · rfl
  · unfold LongPacketHeader.removeProtection; split
    · exact k _ _
    · rfl
  · unfold LongPacketHeader.addProtection; split
    · simp only [LongPacketHeader.packetType, kt]
    · rfl
  · unfold LongPacketHeader.removeProtection; split
    · simp only [LongPacketHeader.packetType, kt]
    · rfl
/-- C22. Packet number protection: reversible, keeps the length, refuses more than four bytes; byte `i` is xored with mask byte `i+1`. -/
theorem C22_pn_reversible (pn : Bytes) (m : Mask) :
    (pn.length ≤ 4 → ∃ x, xorPnProtection pn m = .ok x ∧ x.length = pn.length ∧ xorPnProtection x m = .ok pn ∧
      ∀ i (h1 : i < x.length) (h2 : i < pn.length), x[i] = pn[i] ^^^ ([m.m1, m.m2, m.m3, m.m4][i]?.getD 0)) ∧
    (4 < pn.length → (xorPnProtection pn m).isErr = true) := by
  constructor
  · intro h
    have hl : (pn.zipWith (· ^^^ ·) [m.m1, m.m2, m.m3, m.m4]).length = pn.length := by simp; omega
    refine ⟨pn.zipWith (· ^^^ ·) [m.m1, m.m2, m.m3, m.m4], ?_, hl, ?_, ?_⟩
    · rw [xorPnProtection, if_neg (by omega)]
    · rw [xorPnProtection, if_neg (by omega)]
      congr 1
      apply List.ext_getElem
      · simp; omega
      · intro i h1 h2
        simp [xor_xor]
    · intro i h1 h2
      have h4 : i < [m.m1, m.m2, m.m3, m.m4].length := by simp; omega
      rw [List.getElem?_eq_getElem h4]
      simp
  · intro h
    rw [xorPnProtection, if_pos h]
    rfl
/-- C22. The packet number length cannot be read while the header is protected; once it is not, it is the low two bits plus one. -/
theorem C22_pn_length_needs_unprotected (h : LongPacketHeader) (m : Mask) :
    (h.isProtected = true → h.packetNumberLength.isErr = true) ∧
    (h.isProtected = false → h.packetNumberLength = .ok (h.headerByte.toNat % 4 + 1)) ∧
    (LongPacketHeader.pnLengthFromHeaderByte h.headerByte).toNat = h.headerByte.toNat % 4 + 1 ∧
    (h.removeProtection m).isProtected = false ∧ (h.addProtection m).isProtected = true := by
  refine ⟨?_, ?_, ?_, ?_, ?_⟩
  · intro hp; simp [LongPacketHeader.packetNumberLength, hp]
  · intro hp
    have : ∀ b : U8, (b &&& 0x03).toNat = b.toNat % 4 := by decide +kernel
    simp only [LongPacketHeader.packetNumberLength, hp, Bool.false_eq_true, if_false, this]
  · have : ∀ b : U8, (LongPacketHeader.pnLengthFromHeaderByte b).toNat = b.toNat % 4 + 1 := by decide +kernel
    exact this _
  · cases hp : h.isProtected <;> simp [LongPacketHeader.removeProtection, hp]
  · cases hp : h.isProtected <;> simp [LongPacketHeader.addProtection, hp]
/-- C22, short header: spin bit, reserved bits, key phase and packet number length are refused while protected. -/
theorem C22_short_fields_need_unprotected (h : ShortPacketHeader) (m : Mask) :
    (h.isProtected = true → h.packetNumberLength.isErr = true ∧ h.spinBit.isErr = true ∧ h.reservedBits.isErr = true ∧
      h.keyPhase.isErr = true) ∧
    (h.isProtected = false → h.packetNumberLength = .ok (h.headerByte.toNat % 4 + 1) ∧ h.spinBit = .ok (h.headerByte.getLsbD 5) ∧
      h.keyPhase = .ok (h.headerByte.getLsbD 2) ∧ h.reservedBits = .ok (BitVec.ofNat 8 (h.headerByte.toNat / 8 % 4))) ∧
    (h.removeProtection m).isProtected = false ∧ (h.addProtection m).isProtected = true := by
  refine ⟨?_, ?_, ?_, ?_⟩
  · intro hp; simp [ShortPacketHeader.packetNumberLength, ShortPacketHeader.spinBit, ShortPacketHeader.reservedBits,
      ShortPacketHeader.keyPhase, hp]
  · intro hp
    have k : ∀ b : U8, (b &&& 0x03).toNat = b.toNat % 4 ∧ decide (b &&& 0x20 = 0x20) = b.getLsbD 5 ∧
      decide (b &&& 0x04 = 0x04) = b.getLsbD 2 ∧ (b &&& 0x18) >>> 3 = BitVec.ofNat 8 (b.toNat / 8 % 4) := by decide +kernel
    obtain ⟨k1, k2, k3, k4⟩ := k h.headerByte
    simp only [ShortPacketHeader.packetNumberLength, ShortPacketHeader.spinBit, ShortPacketHeader.reservedBits,
      ShortPacketHeader.keyPhase, hp, Bool.false_eq_true, if_false, k1, k2, k3, k4, and_self]
  · cases hp : h.isProtected <;> simp [ShortPacketHeader.removeProtection, hp]
  · cases hp : h.isProtected <;> simp [ShortPacketHeader.addProtection, hp]
example : (LongPacketHeader.addProtection ⟨0xc3, 1, 8, ⟨0, 5⟩, 8, ⟨0, 6⟩, none, false⟩ ⟨0xff, 1, 2, 3, 4⟩).headerByte = 0xcc := by decide +kernel

/-! ## C23 -/

/-- A long header as a connection builds it: version not 0, ids of at most 20 bytes that fit. -/
def LongOk (h : LongPacketHeader) : Prop :=
  h.version ≠ 0 ∧ h.versionNegotiation = none ∧ 128 ≤ h.headerByte.toNat ∧
  h.destinationConnectionIdLength.toNat ≤ 20 ∧ cidVal h.destinationConnectionId < 256 ^ h.destinationConnectionIdLength.toNat ∧
  h.sourceConnectionIdLength.toNat ≤ 20 ∧ cidVal h.sourceConnectionId < 256 ^ h.sourceConnectionIdLength.toNat

/-- C23. Written and parsed back, whatever follows: same fields, exactly those bytes consumed (the protection flag is set as for any header
taken from the wire). -/
theorem C23_write_parse (h : LongPacketHeader) (s : Stream) (hk : LongOk h) :
    ∃ bs, h.toBytes = .ok bs ∧ LongFields h bs ∧ nextHeaderFromStream (makeResultStream bs ++ s) =
      (.ok (.long { h with isProtected := protectable (packetKind h.headerByte h.version) }), s) := by
  obtain ⟨h0, hvn, hb, hd, fd, hs, fs⟩ := hk
  obtain ⟨bs, e, hf⟩ := long_toBytes_fields (fun e => h0 (BitVec.eq_of_toNat_eq e)) hvn hd hs fd fs
  exact ⟨bs, e, hf, nextHeader_long_iff.mpr ⟨bs, rfl, hf, hb, rfl⟩⟩
/-- C23. Parsed and written: the same bytes, for every long header with version other than 0. -/
theorem C23_parse_write (s s' : Stream) (h : LongPacketHeader) (hm : nextHeaderFromStream s = (.ok (.long h), s')) (h0 : h.version ≠ 0) :
    ∃ bs, s = makeResultStream bs ++ s' ∧ h.toBytes = .ok bs ∧ LongOk h := by
  obtain ⟨bs, e, hf, hb, hp⟩ := nextHeader_long_iff.mp hm
  have h0' : h.version.toNat ≠ 0 := fun e => h0 (BitVec.eq_of_toNat_eq e)
  have hf' := hf
  obtain ⟨vb, d, sc, _, _, _, ld, ls, hif⟩ := hf'
  rw [if_neg h0'] at hif
  obtain ⟨hvn, h1, h2, v1, v2⟩ := hif
  have fd := beNat_lt d
  rw [v1, ld] at fd
  have fs := beNat_lt sc
  rw [v2, ls] at fs
  obtain ⟨bs', e', hf2⟩ := long_toBytes_fields h0' hvn (by omega) (by omega) fd fs
  exact ⟨bs, e, by rw [e', longFields_inj hf2 hf], h0, hvn, hb, by omega, fd, by omega, fs⟩
/-- C23 for the first-byte-consumed entry point used by the packet parsers. -/
theorem C23_from_stream (h : LongPacketHeader) (s : Stream) (hk : LongOk h) :
    ∃ bs, h.toBytes = .ok (h.headerByte :: bs) ∧ LongPacketHeader.fromStream h.headerByte (makeResultStream bs ++ s) =
      (.ok { h with isProtected := protectable (packetKind h.headerByte h.version) }, s) := by
  obtain ⟨h0, hvn, hb, hd, fd, hs, fs⟩ := hk
  obtain ⟨bs, e, hf⟩ := long_toBytes_fields (fun e => h0 (BitVec.eq_of_toNat_eq e)) hvn hd hs fd fs
  have hf' := hf
  obtain ⟨vb, d, sc, rfl, _⟩ := hf'
  simp only [List.cons_append, List.nil_append, List.append_assoc] at e hf
  exact ⟨_, e, long_reads (h := { h with isProtected := protectable (packetKind h.headerByte h.version) }) hf hb rfl s⟩
/-- C23, short headers (8-byte ids below 2^64). -/
theorem C23_short (h : ShortPacketHeader) (s : Stream) (hb : h.headerByte.toNat < 128) (hfit : cidVal h.destinationConnectionId < 2 ^ 64) :
    ∃ bs, h.toBytes = .ok bs ∧ bs.length = 9 ∧
      nextHeaderFromStream (makeResultStream bs ++ s) = (.ok (.short { h with isProtected := true }), s) := by
  obtain ⟨d, ed, ld, vd⟩ := toVarBytes_spec h.destinationConnectionId 8 (by decide)
  refine ⟨[h.headerByte] ++ d, by simp [ShortPacketHeader.toBytes, ed], by simp [ld], nextHeader_short_iff.mpr ⟨_, rfl, ⟨d, rfl, ld, ?_⟩, hb, rfl⟩⟩
  rw [vd]
  exact Nat.mod_eq_of_lt (by rw [show (256 : Nat) ^ 8 = 2 ^ 64 by decide]; exact hfit)
example : LongOk ⟨0xc3, 1, 8, ⟨0, 5⟩, 20, ⟨0xffffffff, 6⟩, none, false⟩ := by
  refine ⟨by decide, rfl, by decide, by decide, ?_, by decide, ?_⟩
  · show cidVal ⟨0, 5⟩ < 256 ^ 8
    decide +kernel
  · show cidVal ⟨0xffffffff, 6⟩ < 256 ^ 20
    decide +kernel

/-! ## C24 -/

/-- C24. Parsing a header never panics, on any stream. -/
theorem C24_header_total (s : Stream) : (nextHeaderFromStream s).1.isPanic = false := nextHeader_noPanic s
/-- C24. With a version other than 0, a destination id length above 20 is rejected, whatever follows. -/
theorem C24_long_dcid_rejected (first len : U8) (vb : Bytes) (s : Stream) (hb : 128 ≤ first.toNat) (hl : vb.length = 4) (hv : beNat vb ≠ 0)
    (hlen : 20 < len.toNat) :
    nextHeaderFromStream (makeResultStream ([first] ++ vb ++ [len]) ++ s) =
      (.err (.internalError "invalid destination connection id length"), s) := by
  have hlt : beNat vb < 2 ^ 32 := by have := beNat_lt vb; rw [hl] at this; exact this
  have e : (BitVec.ofNat (8 * 4) (beNat vb)).toNat = beNat vb := by rw [BitVec.toNat_ofNat]; exact Nat.mod_eq_of_lt hlt
  have h0 : ¬ (BitVec.ofNat (8 * 4) (beNat vb) : U32) = VERSION_NEGOTIATION_VERSION_VALUE := fun h => hv (by rw [← e]; exact u32_zero.mpr h)
  simp only [makeResultStream_append, List.append_assoc]
  refine Eq.trans (Rd.bind_ok (nextOr_reads _ first _)) ?_
  rw [if_pos ((formBit _).mpr hb)]
  refine Rd.bind_err ?_
  rw [long_eq]
  refine Eq.trans (Rd.bind_ok (uint_reads' (n := 4) (x := BitVec.ofNat (8 * 4) (beNat vb)) _ (by decide) hl e.symm _)) ?_
  refine Rd.bind_err ?_
  unfold idsFromStream
  rw [if_pos (by rw [decide_eq_false h0]; rfl)]
  refine Eq.trans (Rd.bind_ok (u8_reads _ _)) ?_
  rw [if_pos hlen]
  rfl
/-- C24. Likewise the source id length. -/
theorem C24_long_scid_rejected (first dlen len : U8) (vb d : Bytes) (s : Stream) (hb : 128 ≤ first.toNat) (hl : vb.length = 4)
    (hv : beNat vb ≠ 0) (hd : d.length = dlen.toNat) (hd20 : dlen.toNat ≤ 20) (hlen : 20 < len.toNat) :
    nextHeaderFromStream (makeResultStream ([first] ++ vb ++ [dlen] ++ d ++ [len]) ++ s) =
      (.err (.internalError "invalid source connection id length"), s) := by
  have hlt : beNat vb < 2 ^ 32 := by have := beNat_lt vb; rw [hl] at this; exact this
  have e : (BitVec.ofNat (8 * 4) (beNat vb)).toNat = beNat vb := by rw [BitVec.toNat_ofNat]; exact Nat.mod_eq_of_lt hlt
  have h0 : ¬ (BitVec.ofNat (8 * 4) (beNat vb) : U32) = VERSION_NEGOTIATION_VERSION_VALUE := fun h => hv (by rw [← e]; exact u32_zero.mpr h)
  simp only [makeResultStream_append, List.append_assoc]
  refine Eq.trans (Rd.bind_ok (nextOr_reads _ first _)) ?_
  rw [if_pos ((formBit _).mpr hb)]
  refine Rd.bind_err ?_
  rw [long_eq]
  refine Eq.trans (Rd.bind_ok (uint_reads' (n := 4) (x := BitVec.ofNat (8 * 4) (beNat vb)) _ (by decide) hl e.symm _)) ?_
  refine Rd.bind_err ?_
  unfold idsFromStream
  rw [if_pos (by rw [decide_eq_false h0]; rfl)]
  refine Eq.trans (Rd.bind_ok (u8_reads _ _)) ?_
  rw [if_neg (by omega)]
  refine Eq.trans (Rd.bind_ok (cid_reads hd hd20 (cidVal_read d (by omega)) _)) ?_
  refine Eq.trans (Rd.bind_ok (u8_reads _ _)) ?_
  rw [if_pos hlen]
  rfl
/-- C24. With version 0, every pair of id lengths up to 255 is accepted and the ids are kept verbatim. -/
theorem C24_version_zero_any_length (first dlen slen : U8) (d sc : Bytes) (s : Stream) (hb : 128 ≤ first.toNat) (hd : d.length = dlen.toNat)
    (hs : sc.length = slen.toNat) :
    nextHeaderFromStream (makeResultStream ([first, 0, 0, 0, 0] ++ [dlen] ++ d ++ [slen] ++ sc) ++ s) =
      (.ok (.long ⟨first, 0, dlen, U160.zero, slen, U160.zero, some ⟨d, sc⟩, false⟩), s) := by
  refine nextHeader_long_iff.mpr ⟨_, rfl, ⟨[0, 0, 0, 0], d, sc, by simp, rfl, (by decide : beNat [0, 0, 0, 0] = (0 : U32).toNat), hd, hs, ?_⟩, hb, ?_⟩
  · rw [if_pos (by rfl)]
    exact ⟨rfl, cidVal_zero_iff.mpr rfl, cidVal_zero_iff.mpr rfl⟩
  · unfold packetKind
    rw [if_neg (Nat.not_lt.mpr hb), if_pos (by rfl)]
    rfl
example : 128 ≤ (0xc0 : U8).toNat ∧ 20 < (21 : U8).toNat ∧ ([0, 0, 0, 1] : Bytes).length = 4 ∧ beNat [0, 0, 0, 1] ≠ 0 := by decide +kernel

/-! ## C25 -/

/-- C25. The kind found by parsing a header is RFC 9000's function of the first byte and the next four bytes. -/
theorem C25_classification (first : U8) (vb : Bytes) (s s' : Stream) (h : PacketHeader) (hl : vb.length = 4)
    (hm : nextHeaderFromStream (makeResultStream ([first] ++ vb) ++ s) = (.ok h, s')) :
    h.getPacketType = .ok (packetKind first (BitVec.ofNat 32 (beNat vb))) := by
  cases h with
  | short h =>
    obtain ⟨bs, e, ⟨d, rfl, _⟩, hb, _⟩ := nextHeader_short_iff.mp hm
    simp only [List.cons_append, List.nil_append, makeResultStream_cons, List.cons.injEq, Except.ok.injEq] at e
    have e1 : first = h.headerByte := e.1
    show Out.ok PacketType.oneRtt = _
    unfold packetKind
    rw [if_pos (by rw [e1]; exact hb)]
  | long h =>
    obtain ⟨bs, e, ⟨vb', d, sc, rfl, l', v', _⟩, hb, _⟩ := nextHeader_long_iff.mp hm
    simp only [List.cons_append, List.nil_append, List.append_assoc, makeResultStream_cons, List.cons.injEq, Except.ok.injEq,
      makeResultStream_append] at e
    obtain ⟨e1, e2⟩ := e
    have := (List.append_inj e2 (by simp [hl, l'])).1
    have := makeResultStream_inj this
    subst this
    show h.packetType = _
    rw [packetType_eq _ hb, e1, v']
    congr 2
    simp
/-- C25. Every success is of that form: at least five bytes were there. -/
theorem C25_has_five_bytes (s s' : Stream) (h : PacketHeader) (hm : nextHeaderFromStream s = (.ok h, s')) :
    ∃ first vb s1, s = makeResultStream ([first] ++ vb) ++ s1 ∧ vb.length = 4 := by
  cases h with
  | short h =>
    obtain ⟨bs, e, ⟨d, rfl, l, _⟩, _⟩ := nextHeader_short_iff.mp hm
    exact ⟨h.headerByte, d.take 4, makeResultStream (d.drop 4) ++ s', by
      rw [e, ← List.append_assoc, ← makeResultStream_append, List.append_assoc, List.take_append_drop], by simp [l]⟩
  | long h =>
    obtain ⟨bs, e, ⟨vb', d, sc, rfl, l', v', _⟩, _⟩ := nextHeader_long_iff.mp hm
    exact ⟨h.headerByte, vb', _, by rw [e]; simp only [makeResultStream_append, List.append_assoc]; rfl, l'⟩
/-- C25. It does not depend on header protection. -/
theorem C25_before_protection_removed (h : LongPacketHeader) (m : Mask) :
    (h.removeProtection m).packetType = h.packetType ∧ h.packetType.isPanic = false :=
  ⟨(C22_type_preserved h m).2.2.2, packetType_noPanic h⟩

/-- Kind of a decoded packet. -/
def Packet.kind : Packet → PacketType
  | .versionNegotiation _ => .versionNegotiation
  | .initial _ => .initial
  | .zeroRtt _ => .zeroRtt
  | .handshake _ => .handshake
  | .retry _ => .retry
  | .oneRtt _ => .oneRtt
/-- C25. A packet that is decoded is of the kind its first bytes say. -/
theorem C25_decoded_kind (bp : Profile) (c : Connection) (first : U8) (vb : Bytes) (s s' : Stream) (p : Packet) (hl : vb.length = 4)
    (hm : decodeNextPacket bp c (makeResultStream ([first] ++ vb) ++ s) = (.ok p, s')) :
    p.kind = packetKind first (BitVec.ofNat 32 (beNat vb)) := by
  unfold decodeNextPacket at hm
  obtain ⟨_, _, hc, hm⟩ := Rd.bind_eq_ok hm
  cases hc
  obtain ⟨h, s1, hc, hm⟩ := Rd.bind_eq_ok hm
  have hx : ∃ s2, nextHeaderFromStream (makeResultStream ([first] ++ vb) ++ s) = (.ok h, s2) := by
    rcases e : nextHeaderFromStream (makeResultStream ([first] ++ vb) ++ s) with ⟨o, s2⟩
    rw [e] at hc
    cases o <;> cases hc
    exact ⟨_, rfl⟩
  obtain ⟨s2, hx⟩ := hx
  have hk := C25_classification first vb s s2 h hl hx
  cases h with
  | short h =>
    obtain ⟨r, s3, _, hm⟩ := Rd.bind_eq_ok hm
    cases hm
    exact Out.ok.inj hk
  | long h =>
    have hk : h.packetType = _ := hk
    simp only [hk] at hm
    obtain ⟨t, s3, ht, hm⟩ := Rd.bind_eq_ok hm
    cases ht
    generalize packetKind first (BitVec.ofNat 32 (beNat vb)) = k at hm
    cases k <;> simp only at hm <;> first
      | (obtain ⟨r, s3, _, hm⟩ := Rd.bind_eq_ok hm; cases hm; rfl)
      | cases hm
example : packetKind 0xe5 1 = .handshake ∧ packetKind 0xe5 0 = .versionNegotiation ∧ packetKind 0x45 1 = .oneRtt := by decide +kernel

end QuicSea
