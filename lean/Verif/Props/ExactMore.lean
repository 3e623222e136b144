import Verif.Props.Construct
import Verif.Props.Rules
import Verif.Props.Shortest
import Verif.Props.AppData
import Verif.Props.Malleable
/-
C68, C69, C74, C89: exactly where the code departs from the claim.
-/
namespace QuicSea
open Spec

/-! ## C68 -/

/-- The frames that the parser can deliver: STREAM at offset 0 with its data counted; CRYPTO with as many bytes as Length and offset together; of
the others all well-formed ones. -/
def Deliverable : Frame → Prop
  | .stream x => x.streamId.toNat < 2 ^ 62 ∧ x.offset = 0 ∧ x.length = BitVec.ofNat 64 x.streamData.length
  | .crypto x => x.offset.toNat < 2 ^ 62 ∧ x.length.toNat < 2 ^ 62 ∧ x.cryptoData.length = x.length.toNat + x.offset.toNat
  | f => WellFormed f

theorem codeFrames_deliverable {fs : List Frame} {b : Bytes} (h : CodeFrames fs b) : ∀ f ∈ fs, Deliverable f := by
  induction h with
  | nil => intro f hf; cases hf
  | @cons f fs tb b bs t ht hcb _ ih =>
    intro g hg
    rcases List.mem_cons.mp hg with rfl | hg
    · generalize t.toNat % 256 = u at hcb
      generalize makeResultStream bs = q at hcb
      cases hcb with
      | std h h6 h8 =>
        have hw := frameBody_wf (h true) h8
        cases h true with
        | crypto => exact absurd rfl h6
        | stream => exact absurd ⟨(streamFlags_nat _ _ _).2.2.2.1, (streamFlags_nat _ _ _).2.2.2.2⟩ h8
        | _ => exact hw
      | crypto h1 h2 h3 => exact ⟨h1.lt, h2.lt, h3⟩
      | stream _ _ h1 => exact ⟨h1.lt, rfl, rfl⟩
    · exact ih g hg
theorem plain_delivered {f : Frame} (hp : Plain f) (hw : WellFormed f) : ∃ bs, deserializeFrames (makeResultStream bs) = (.ok [f], []) := by
  have hcid : ∀ x, f = .newConnectionId x → x.length.toNat ≤ 20 := by
    rintro x rfl
    exact hw.2.2.1
  obtain ⟨hok, _⟩ := C18_serialize_fails_iff f false hcid
  have hok := hok.mpr hw.1
  cases hb : f.toBytes false with
  | ok bs =>
    have hwire := wire_parse (toBytes_wire hw.2 hb) hp []
    refine ⟨bs, ?_⟩
    obtain ⟨t, body, -, -, rfl⟩ := toBytes_wire hw.2 hb
    rw [List.append_nil] at hwire
    rw [deserializeFrames_eq]
    rw [makeResultStream_cons] at hwire ⊢
    simp only [hwire]
    rw [deserializeFrames_eq]
  | err e => rw [hb] at hok; cases hok
  | panic w => rw [hb] at hok; cases hok

/-- C68, exact: a frame can be delivered exactly if it is `Deliverable`, and those among them that violate the limits of RFC 9000 section 19 are the
ones for which the claim fails. -/
theorem C68_exact (f : Frame) :
    (∃ (s s' : Stream) (fs : List Frame), deserializeFrames s = (.ok fs, s') ∧ f ∈ fs ∧ valid f = false) ↔ Deliverable f ∧ valid f = false := by
  constructor
  · rintro ⟨s, s', fs, h, hf, hv⟩
    obtain ⟨_, bs, rfl, hc⟩ := frames_iff.mp h
    exact ⟨codeFrames_deliverable hc f hf, hv⟩
  · rintro ⟨hd, hv⟩
    suffices h : ∃ bs, deserializeFrames (makeResultStream bs) = (.ok [f], []) by
      obtain ⟨bs, h⟩ := h
      exact ⟨_, _, _, h, List.mem_singleton.mpr rfl, hv⟩
    cases f with
    | stream x =>
      obtain ⟨h1, h2, h3⟩ := hd
      obtain ⟨id, off, len, data, fin⟩ := x
      dsimp only at h1 h2 h3
      subst h2 h3
      obtain ⟨b1, e1⟩ := encodeVarInt_ok id h1
      refine ⟨[if fin then 0x09 else 0x08] ++ ((b1 ++ data) ++ []), frames_complete ?_⟩
      cases fin
      · exact .cons (t := 0x08) (isVarInt_one 8 (by decide)) (.stream (t := 8) (by decide) (by decide) (encodeVarInt_isVarInt e1)) .nil
      · exact .cons (t := 0x09) (isVarInt_one 9 (by decide)) (.stream (t := 9) (by decide) (by decide) (encodeVarInt_isVarInt e1)) .nil
    | crypto x =>
      obtain ⟨h1, h2, h3⟩ := hd
      obtain ⟨b1, e1⟩ := encodeVarInt_ok x.offset h1
      obtain ⟨b2, e2⟩ := encodeVarInt_ok x.length h2
      exact ⟨[0x06] ++ ((b1 ++ (b2 ++ x.cryptoData)) ++ []), frames_complete
        (.cons (t := 0x06) (isVarInt_one 6 (by decide)) (.crypto (encodeVarInt_isVarInt e1) (encodeVarInt_isVarInt e2) h3) .nil)⟩
    | _ => exact plain_delivered trivial hd
/-- A limit of 2^62 - 1 streams: 2^60 is the most that RFC 9000 allows. -/
example : Deliverable (.maxStreams ⟨2 ^ 62 - 1, false⟩) ∧ valid (.maxStreams ⟨2 ^ 62 - 1, false⟩) = false :=
  ⟨⟨by intro v hv; rw [List.mem_singleton.mp hv]; decide +kernel, trivial⟩, by decide +kernel⟩

/-! ## C69 -/

/-- C69, exact: the result is `n` exactly for the numbers of `n` bits, `n` at least 1. -/
theorem C69_exact (w : Nat) (x : BitVec w) (n : Nat) : floorLog2 x = .ok n ↔ 1 ≤ n ∧ 2 ^ (n - 1) ≤ x.toNat ∧ x.toNat < 2 ^ n := by
  by_cases h0 : x.toNat = 0
  · have h := (C69_zero_partial w x).1.mpr h0
    constructor
    · intro e; rw [e] at h; cases h
    · rintro ⟨_, h2, _⟩
      have := Nat.two_pow_pos (n - 1)
      omega
  · obtain ⟨m, h1, h2, h3⟩ := C69_one_more w x h0
    constructor
    · intro e
      rw [h1] at e
      cases e
      exact ⟨by omega, by simpa using h2, h3⟩
    · rintro ⟨g1, g2, g3⟩
      have a : n - 1 < m + 1 := (Nat.pow_lt_pow_iff_right (by decide)).mp (Nat.lt_of_le_of_lt g2 h3)
      have b : m < n := (Nat.pow_lt_pow_iff_right (by decide)).mp (Nat.lt_of_le_of_lt h2 g3)
      rw [h1]
      congr 1
      omega
example : floorLog2 (200 : BitVec 8) = .ok 8 ∧ (2 ^ (8 - 1) ≤ (200 : BitVec 8).toNat ∧ (200 : BitVec 8).toNat < 2 ^ 8) := by decide +kernel

/-! ## C74 -/

/-- C74, exact: of the RFC 9000 1-RTT packets with a payload in its shortest encoding, those delivered as they were sent are the ones with a packet
number of four bytes. -/
theorem C74_exact (P : Prims) (hP : PrimLaws P) (bp : Profile) (c : Connection) (k : Keys) (hkl : KeyLens k)
    (hk : c.remoteSecrets .application = .ok (secretsOf P k)) (ha : (c.pnInfo .application).largestRemoteAck = none) (h : ShortPacketHeader)
    (hp : h.isProtected = false) (pnB payload out : Bytes) (pn : U64) (fs : List Frame) (hw : OneRttWire P k h pnB pn.toNat payload out)
    (hv : beNat pnB = pn.toNat) (hf : (deserializeFrames (makeResultStream payload)).1 = .ok fs) (hs : serializeFrames fs true = .ok payload)
    (hlen : payload.length < 2 ^ 62) :
    decodeNextPacket bp c (makeResultStream out) =
      (.ok (.oneRtt { header := h, packetNumberBytes := pnB, packetNumber := pn, packetPayload := fs }), []) ↔ pnB.length = 4 := by
  constructor
  · intro hd
    obtain ⟨out1, hb', pl, skip, g1, -, g3, -, g5, g6⟩ := oneRtt_opened hk hkl.2.1 hd
    obtain rfl : out = out1 := makeResultStream_inj g1
    obtain ⟨hb, w1, -, w3, nb, ct, tag, m0, m1, m2, m3, m4, r, -, -, w4, w5, -, w7⟩ := hw
    obtain ⟨nb', ct', tag', m0', m1', m2', m3', m4', r', pnM, -, -, i3, i4, i5, -, -, i8, i9⟩ := g5
    dsimp only at g3 g6 i3 i4 i8 i9
    obtain ⟨_, q1, q2, -⟩ := w1
    obtain ⟨_, q3, q4, -⟩ := g3
    have hl1 : hb.length = 8 := by rw [List.singleton_append] at q1; cases q1; exact q2
    have hl2 : hb'.length = 8 := by rw [List.singleton_append] at q3; cases q3; exact q4
    obtain ⟨l1, l2⟩ := hP.seal_length _ _ _ _ _ _ w4
    obtain ⟨l3, -⟩ := hP.seal_length _ _ _ _ _ _ (hP.seal_open _ _ _ _ _ _ i3 i8)
    have hn := congrArg List.length (w7.symm.trans i9)
    simp only [List.length_append, List.length_cons, List.length_nil, List.length_zipWith] at hn i5
    have h4 : h.headerByte.toNat % 4 < 4 := Nat.mod_lt _ (by decide)
    have hpl : pl.length < 2 ^ 62 := by omega
    rcases he : deserializeFrames (makeResultStream pl) with ⟨o, s'⟩
    rw [he] at g6
    dsimp only at g6
    subst g6
    obtain ⟨bs, e1, e2, -⟩ := C93_reencoding _ _ _ (by simpa using hpl) he
    rw [hs] at e1
    cases e1
    rw [makeResultStream_length] at e2
    omega
  · exact fun h4 => C74_four_bytes_partial P hP bp c k hkl hk ha h hp pnB payload out pn fs hw h4 hv hf
/-- The packets of the examples have such a payload, with packet numbers of two and of four bytes. -/
example : OneRttWire Spec.toy exKeys (exOneHeader 2) (exPn 2) 1 exPayload (exOneOut 2) ∧ OneRttWire Spec.toy exKeys (exOneHeader 4) (exPn 4) 1 exPayload (exOneOut 4) ∧
    (deserializeFrames (makeResultStream exPayload)).1 = .ok (.ping :: List.replicate 20 .padding) ∧
    serializeFrames (.ping :: List.replicate 20 .padding) true = .ok exPayload :=
  ⟨exOneOut_wire 2 (by decide), exOneOut_wire 4 (by decide), by decide +kernel, by decide +kernel⟩

/-! ## C89 -/

/-- C89, exact: the bytes that give the AEAD the same inputs as an accepted Initial packet are exactly those that agree with it outside the
`4 - n` bytes after its packet number of `n` bytes. -/
theorem C89_exact (P : Prims) (hP : PrimLaws P) (bp bp' : Profile) (c : Connection) (hr : Connection.Reachable P bp c) (k : Keys)
    (hk : c.remoteSecrets .initial = .ok (secretsOf P k)) (out : Bytes) (t : Stream) (p : PacketInitial)
    (h : decodeNextPacket bp' c (makeResultStream out ++ t) = (.ok (.initial p), t)) :
    ∃ hb tl lb nb ct tag plain pre skip, LongFields p.header (p.header.headerByte :: hb) ∧ IsVarInt tl p.token.length ∧
      beNat nb = p.packetNumber.toNat ∧ (deserializeFrames (makeResultStream plain)).1 = .ok p.packetPayload ∧
      out = pre ++ skip ++ ct ++ tag ∧ p.packetNumberBytes.length + skip.length = 4 ∧
      pre.length = 1 + (hb ++ tl ++ p.token ++ lb).length + p.packetNumberBytes.length ∧
      ∀ out', OpenedFrom P k 0x0f p.header.headerByte (hb ++ tl ++ p.token ++ lb) p.packetNumberBytes nb ct tag plain out' ↔
        ∃ skip', skip'.length = skip.length ∧ out' = pre ++ skip' ++ ct ++ tag := by
  obtain ⟨out1, hb, tl, lb, pl, skip0, L, g1, g2, _, _, g5, _, g7, _, _, _, g11⟩ := initial_opened hk (reachable_iv hP hr hk).2.1 h
  obtain rfl : out = out1 := makeResultStream_inj (List.append_cancel_right g1)
  obtain ⟨nb, ct, tag, e, m0, m1, m2, m3, m4, r, pnM, skip, i1, i2, i3, i4, i5, i6, i7, i8⟩ := Opened.from g7
  have hn : pnM.length ≤ 4 := by rw [List.length_append] at i4; omega
  have hl : p.packetNumberBytes.length = pnM.length := by rw [i5, List.length_zipWith]; show min pnM.length 4 = _; omega
  refine ⟨hb, tl, lb, nb, ct, tag, pl, [p.header.headerByte ^^^ (m0 &&& 0x0f)] ++ (hb ++ tl ++ p.token ++ lb) ++ pnM, skip, g2, g5, e, g11, i8,
    by rw [hl, ← List.length_append]; exact i4, by simp only [List.length_append, List.length_cons, List.length_nil]; omega, ?_⟩
  intro out'
  constructor
  · rintro ⟨m0', m1', m2', m3', m4', r', pnM', sk', _, _, j3, j4, j5, j6, _, j8⟩
    rw [i6] at j6
    simp only [Option.some.injEq, List.cons.injEq] at j6
    obtain ⟨rfl, rfl, rfl, rfl, rfl, -⟩ := j6
    have hn' : pnM'.length ≤ 4 := by rw [List.length_append] at j4; omega
    have w1 : pnM = p.packetNumberBytes.zipWith (· ^^^ ·) [m1, m2, m3, m4] := by rw [i5, zipWith_xor_twice _ _ (by simpa using hn)]
    have w2 : pnM' = p.packetNumberBytes.zipWith (· ^^^ ·) [m1, m2, m3, m4] := by rw [j5, zipWith_xor_twice _ _ (by simpa using hn')]
    rw [List.length_append] at i4 j4
    exact ⟨sk', by omega, by rw [j8, w1, w2]⟩
  · rintro ⟨skip', hs, rfl⟩
    exact ⟨m0, m1, m2, m3, m4, r, pnM, skip', i1, i2, i3, by rw [List.length_append] at i4 ⊢; omega, i5, i6, i7, rfl⟩
/-- The packet with a number of two bytes is such a packet; two bytes are free. -/
example : decodeNextPacket .debug exConn (makeResultStream (exMal 0 0) ++ []) = (.ok (.initial exMalPacket), []) ∧ exMalPacket.packetNumberBytes.length = 2 :=
  ⟨by rw [List.append_nil]; exact exMal_decoded _, rfl⟩

end QuicSea
