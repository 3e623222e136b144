import Verif.Props.Authentic
import Verif.Props.Exact
import Verif.Props.AppData
/-
C104: a protected packet of any kind that is accepted carries the header, the number and the payload of a packet that the peer protected, whatever
implementation the peer is, or the AEAD was made to accept a forgery.
-/
namespace Spec
open QuicSea

/-- A packet as a sender protects it (RFC 9001 section 5). -/
structure Sent where
  first : U8
  mid : Bytes
  pnBytes : Bytes
  pn : Nat
  payload : Bytes
  out : Bytes

/-- It was protected with the key `k` by this call of the AEAD. -/
def Sent.Call (P : Prims) (k : Keys) (x : Sent) (nonce ad ct tag : Bytes) : Prop :=
  ∃ nb m0 m1 m2 m3 m4 r, nb.length = 8 ∧ beNat nb = x.pn ∧ nonce = rfcNonce k.iv nb ∧ ad = [x.first] ++ x.mid ++ x.pnBytes ∧
    P.gcmSeal k.key nonce ad x.payload = some (ct, tag) ∧
    P.aesEcb k.hp (((x.pnBytes ++ ct ++ tag).drop 4).take 16) = some (m0 :: m1 :: m2 :: m3 :: m4 :: r) ∧
    x.out = [x.first ^^^ (m0 &&& protectedBits x.first)] ++ x.mid ++ x.pnBytes.zipWith (· ^^^ ·) [m1, m2, m3, m4] ++ ct ++ tag
/-- The calls made for a set of packets, all with the right length of the packet number in the first byte. -/
def CallsFor (P : Prims) (k : Keys) (S : Sent → Prop) (nonce ad ct tag : Bytes) : Prop :=
  ∃ x, S x ∧ x.first.toNat % 4 + 1 = x.pnBytes.length ∧ x.Call P k nonce ad ct tag

end Spec

namespace QuicSea
open Spec

/-- What was opened was sealed, or is a forgery. -/
theorem opened_authentic {P : Prims} (hP : PrimLaws P) {k : Keys} (hiv : k.iv.length = 12) {first : U8} {mid pnB skip pl out : Bytes} {pn : Nat}
    (ho : Opened P k (protectedBits first) first mid pnB skip pn pl out) (S : Sent → Prop) :
    (∃ x, S x ∧ x.first = first ∧ x.mid = mid ∧ x.pnBytes = pnB ∧ x.pn = pn ∧ x.payload = pl ∧ (x.pnBytes.length = 4 → x.out = out)) ∨
      Forgery P k (CallsFor P k S) first mid pnB pn out := by
  obtain ⟨nb, ct, tag, m0, m1, m2, m3, m4, r, pnM, i1, i2, i3, i4, i5, i6, i7, i8, i9⟩ := ho
  by_cases hm : CallsFor P k S (rfcNonce k.iv nb) ([first] ++ mid ++ pnB) ct tag
  · left
    obtain ⟨x, hx, hl, nb', n0, n1, n2, n3, n4, r', j1, j2, j3, j4, j5, j6, j7⟩ := hm
    obtain rfl := rfcNonce_inj hiv i1 j1 j3
    have hpM : pnB.length = pnM.length := by
      rw [i6, List.length_zipWith]
      simp only [List.length_append, List.length_cons, List.length_nil] at i5 ⊢
      omega
    simp only [List.cons_append, List.nil_append, List.cons.injEq] at j4
    obtain ⟨e1, e2⟩ := j4
    obtain ⟨e3, e4⟩ := List.append_inj' e2 (by rw [hpM, i4, e1, hl])
    have hpl : x.payload = pl := by
      have := hP.open_seal _ _ _ _ _ _ j5
      rw [i8] at this
      exact (Option.some.inj this).symm
    refine ⟨x, hx, e1.symm, e3.symm, e4.symm, j2.symm.trans i2, hpl, fun h4 => ?_⟩
    have hskip : skip = [] := by
      rw [List.length_append] at i5
      rw [← e4] at h4
      exact List.eq_nil_of_length_eq_zero (by omega)
    subst hskip
    rw [List.append_assoc, List.drop_append, h4, List.drop_eq_nil_of_le (by omega)] at j6
    simp only [List.nil_append, Nat.sub_self, List.drop_zero] at j6
    rw [i7] at j6
    simp only [Option.some.injEq, List.cons.injEq] at j6
    obtain ⟨rfl, rfl, rfl, rfl, rfl, rfl⟩ := j6
    rw [i9, j7, ← e1, ← e3, ← e4, i6, zipWith_xor_twice _ _ (by simp only [List.length_cons, List.length_nil, List.append_nil] at i5 ⊢; omega)]
    simp
  · right
    exact ⟨nb, ct, tag, pl, ⟨m0, m1, m2, m3, m4, r, pnM, skip, i1, i3, i4, i5, i6, i7, i8, i9⟩, i2, hm⟩

theorem short_lt {bp : Profile} {c : Connection} {s s' : Stream} {p : PacketOneRtt} (h : decodeNextPacket bp c s = (.ok (.oneRtt p), s')) {out rest : Bytes} {b m : U8}
    (e : s = makeResultStream out) (ho : out = (b ^^^ (m &&& 0x1f)) :: rest) : b.toNat < 128 := by
  obtain ⟨x, s1, hx, -⟩ := decodeNext_oneRtt h
  obtain ⟨bs0, e0, ⟨d, rfl, -⟩, h128, -⟩ := nextHeader_short_iff.mp hx
  rw [e, ho, makeResultStream_cons, List.singleton_append, makeResultStream_cons, List.cons_append, List.cons.injEq] at e0
  have h0 : b ^^^ (m &&& 0x1f) = x.headerByte := by
    have := e0.1
    injection this
  rw [← h0] at h128
  have hx : ∀ m : U8, (m &&& 0x1f).msb = false := by decide +kernel
  have hb : ∀ b : U8, b.toNat < 128 ↔ b.msb = false := by decide +kernel
  rw [hb, BitVec.msb_xor, hx, Bool.xor_false] at h128
  rw [hb]; exact h128

/-- C104. A protected packet of any kind, accepted from any stream by any connection that has the key `k` for the peer's packets of that kind, whatever set `S` of
packets the peer protected with that key: its first byte, the rest of its header, its packet number and its payload are those of one packet of `S`, and so are all its bytes
when the packet number has four bytes; or the bytes taken from the stream contain a forgery. -/
theorem C104_authentic {P : Prims} (hP : PrimLaws P) {k : Keys} (hiv : k.iv.length = 12) (S : Sent → Prop) (bp : Profile) (c : Connection) (s s' : Stream) (q : Packet)
    (h : decodeNextPacket bp c s = (.ok q, s')) (sp : PnSpace) (hsp : spaceOf q = some sp) (hk : c.remoteSecrets sp = .ok (secretsOf P k)) :
    ∃ out first mid pnB pn fs, s = makeResultStream out ++ s' ∧ Describes q first mid pnB pn fs ∧
      ((∃ x, S x ∧ x.first = first ∧ x.mid = mid ∧ x.pnBytes = pnB ∧ x.pn = pn ∧ (deserializeFrames (makeResultStream x.payload)).1 = .ok fs ∧
          (x.pnBytes.length = 4 → x.out = out)) ∨
        Forgery P k (CallsFor P k S) first mid pnB pn out) := by
  cases q with
  | retry _ => cases hsp
  | versionNegotiation _ => cases hsp
  | initial p =>
    cases hsp
    obtain ⟨out, hb, tl, lb, pl, skip, L, g1, g2, g3, g4, g5, g6, g7, -, -, -, g11⟩ := initial_opened hk hiv h
    refine ⟨out, _, _, _, _, _, g1, .initial g2 g4 g5 g6, ?_⟩
    rw [← bits_long (kind_ge g4 (by decide))] at g7
    refine (opened_authentic hP hiv g7 S).imp ?_ id
    rintro ⟨x, a1, a2, a3, a4, a5, rfl, a7⟩
    exact ⟨x, a1, a2, a3, a4, a5, g11, a7⟩
  | handshake p =>
    cases hsp
    obtain ⟨out, hb, lb, pl, skip, L, g1, g2, g3, g4, g6, g7, g11⟩ := handshake_opened hk hiv h
    refine ⟨out, _, _, _, _, _, g1, .handshake g2 g4 g6, ?_⟩
    rw [← bits_long (kind_ge g4 (by decide))] at g7
    refine (opened_authentic hP hiv g7 S).imp ?_ id
    rintro ⟨x, a1, a2, a3, a4, a5, rfl, a7⟩
    exact ⟨x, a1, a2, a3, a4, a5, g11, a7⟩
  | zeroRtt p =>
    cases hsp
    obtain ⟨out, hb, lb, pl, skip, L, g1, g2, g3, g4, g6, g7, g11⟩ := zeroRtt_opened hk hiv h
    refine ⟨out, _, _, _, _, _, g1, .zeroRtt g2 g4 g6, ?_⟩
    rw [← bits_long (kind_ge g4 (by decide))] at g7
    refine (opened_authentic hP hiv g7 S).imp ?_ id
    rintro ⟨x, a1, a2, a3, a4, a5, rfl, a7⟩
    exact ⟨x, a1, a2, a3, a4, a5, g11, a7⟩
  | oneRtt p =>
    cases hsp
    obtain ⟨out, hb, pl, skip, g1, rfl, g2, g3, g7, g11⟩ := oneRtt_opened hk hiv h
    have hlt : p.header.headerByte.toNat < 128 := by
      obtain ⟨nb, ct, tag, m0, m1, m2, m3, m4, r, pnM, -, -, -, -, -, -, -, -, i9⟩ := g7
      exact short_lt h g1 (by rw [i9]; simp only [List.cons_append]; rfl)
    refine ⟨out, _, _, _, _, _, by rw [g1, List.append_nil], .oneRtt g2 hlt, ?_⟩
    rw [← bits_short hlt] at g7
    refine (opened_authentic hP hiv g7 S).imp ?_ id
    rintro ⟨x, a1, a2, a3, a4, a5, rfl, a7⟩
    exact ⟨x, a1, a2, a3, a4, a5, g11, a7⟩

/-- C104, a whole datagram: each protected packet found in it is a packet the peer sent, or there is a forgery where it was found. -/
theorem C104_datagram {P : Prims} (hP : PrimLaws P) {k : Keys} (hiv : k.iv.length = 12) (S : Sent → Prop) (bp : Profile) (c : Connection) (data : Bytes) (s' : Stream)
    (ps : List Packet) (h : decodePackets bp c (makeResultStream data) = (.ok ps, s')) (q : Packet) (hq : q ∈ ps) (sp : PnSpace) (hsp : spaceOf q = some sp)
    (hk : c.remoteSecrets sp = .ok (secretsOf P k)) :
    ∃ before out after first mid pnB pn fs, data = before ++ out ++ after ∧ Describes q first mid pnB pn fs ∧
      ((∃ x, S x ∧ x.first = first ∧ x.mid = mid ∧ x.pnBytes = pnB ∧ x.pn = pn ∧ (deserializeFrames (makeResultStream x.payload)).1 = .ok fs ∧
          (x.pnBytes.length = 4 → x.out = out)) ∨
        Forgery P k (CallsFor P k S) first mid pnB pn out) := by
  obtain ⟨s1, s2, ⟨t, ht⟩, hs⟩ := decodePackets_mem h _ hq
  obtain ⟨out, first, mid, pnB, pn, fs, g1, g2, g3⟩ := C104_authentic hP hiv S bp c s1 s2 q hs sp hsp hk
  obtain ⟨a, b, rfl, -, hb⟩ := mrs_split ht.symm
  rw [g1] at hb
  obtain ⟨x, y, rfl, hx, -⟩ := mrs_split hb.symm
  obtain rfl := makeResultStream_inj hx
  exact ⟨a, out, y, first, mid, pnB, pn, fs, by simp, g2, g3⟩

/-- C104. A peer that has protected nothing with the key: whatever is accepted is a forgery. -/
theorem C104_nothing_sent {P : Prims} (hP : PrimLaws P) {k : Keys} (hiv : k.iv.length = 12) (bp : Profile) (c : Connection) (s s' : Stream) (q : Packet)
    (h : decodeNextPacket bp c s = (.ok q, s')) (sp : PnSpace) (hsp : spaceOf q = some sp) (hk : c.remoteSecrets sp = .ok (secretsOf P k)) :
    ∃ out first mid pnB pn fs, s = makeResultStream out ++ s' ∧ Describes q first mid pnB pn fs ∧ Forgery P k (fun _ _ _ _ => False) first mid pnB pn out := by
  obtain ⟨out, first, mid, pnB, pn, fs, g1, g2, g3⟩ := C104_authentic hP hiv (fun _ => False) bp c s s' q h sp hsp hk
  refine ⟨out, first, mid, pnB, pn, fs, g1, g2, ?_⟩
  rcases g3 with ⟨x, hx, -⟩ | ⟨nb, ct, tag, plain, f1, f2, -⟩
  · exact absurd hx id
  · exact ⟨nb, ct, tag, plain, f1, f2, id⟩
/-- C104. The two cases exclude one another: a packet the peer protected, with a packet number of four bytes, is no forgery. -/
theorem C104_genuine {P : Prims} (hP : PrimLaws P) {k : Keys} (S : Sent → Prop) (x : Sent) (hx : S x) (hl : x.first.toNat % 4 + 1 = x.pnBytes.length)
    (h4 : x.pnBytes.length = 4) (nonce ad ct tag : Bytes) (hc : x.Call P k nonce ad ct tag) :
    ¬ Forgery P k (CallsFor P k S) x.first x.mid x.pnBytes x.pn x.out := by
  rintro ⟨nb', ct', tag', plain, ⟨n0, n1, n2, n3, n4, r', pnM, skip, i1, i3, i4, i5, i6, i7, i8, i9⟩, hn, hm⟩
  obtain ⟨nb, m0, m1, m2, m3, m4, r, j1, j2, rfl, rfl, j5, j6, j7⟩ := id hc
  obtain ⟨-, l2⟩ := hP.seal_length _ _ _ _ _ _ j5
  obtain rfl : nb' = nb := beNat_inj (i1.trans j1.symm) (hn.trans j2.symm)
  rw [j7] at i9
  simp only [List.append_assoc] at i9
  obtain ⟨-, e⟩ := List.append_inj i9 rfl
  have e := List.append_cancel_left e
  rw [← List.append_assoc pnM] at e
  obtain ⟨-, e⟩ := List.append_inj e (by rw [i5, List.length_zipWith, h4]; rfl)
  obtain ⟨rfl, rfl⟩ := List.append_inj' e (l2.trans i3.symm)
  exact hm ⟨x, hx, hl, hc⟩

/-! ## The crate's own Handshake packets -/

/-- In the history `ops` of the sender `c0` the Handshake packet `p` was built, and serialized to `out`. -/
def SentHs (bp : Profile) (c0 : Connection) (ops : List ConnOp) (p : PacketHandshake) (payload out : Bytes) : Prop :=
  ∃ pre fs post a b, ops = pre ++ .buildHandshake fs :: post ∧ IdsOk (c0.run bp pre).2 ∧ ((c0.run bp pre).2.pnInfo .handshake).largestLocalAck = none ∧
    (PacketHandshake.new bp fs (c0.run bp pre).2).1 = .ok p ∧ serializeFrames fs false = .ok payload ∧ payload.length < 2 ^ 30 ∧
    ops = a ++ b ∧ p.serialize (c0.run bp a).2 = .ok out

/-- As packets of the wire. -/
def HsSent (bp : Profile) (c0 : Connection) (ops : List ConnOp) (x : Sent) : Prop :=
  ∃ p hb lb L, SentHs bp c0 ops p x.payload x.out ∧ x.first = p.header.headerByte ∧ LongFields p.header (p.header.headerByte :: hb) ∧ IsVarInt lb L ∧
    x.mid = hb ++ lb ∧ x.pnBytes = p.packetNumberBytes ∧ x.pn = p.packetNumber.toNat

theorem hs_ad_inj {h h' : LongPacketHeader} {hb lb hb' lb' : Bytes}
    (f : LongFields h (h.headerByte :: hb)) (f' : LongFields h' (h'.headerByte :: hb')) (k : packetKind h.headerByte h.version = .handshake)
    (k' : packetKind h'.headerByte h'.version = .handshake) (p : h.isProtected = false) (p' : h'.isProtected = false)
    (e1 : h.headerByte = h'.headerByte) (e2 : hb ++ lb = hb' ++ lb') : h = h' := by
  have r := long_reads (h := { h with isProtected := true }) (bs := hb) (unprot_fields f) (kind_ge k (by decide)) (by show true = _; rw [k]; rfl) (makeResultStream lb)
  have r' := long_reads (h := { h' with isProtected := true }) (bs := hb') (unprot_fields f') (kind_ge k' (by decide)) (by show true = _; rw [k']; rfl) (makeResultStream lb')
  rw [← makeResultStream_append, e2, makeResultStream_append] at r
  dsimp only at r r'
  rw [e1, r'] at r
  simp only [Prod.mk.injEq, Out.ok.injEq] at r
  have := r.1
  cases h; cases h'
  simp only [LongPacketHeader.mk.injEq] at this p p' e1 ⊢
  obtain ⟨-, a2, a3, a4, a5, a6, a7, -⟩ := this
  exact ⟨e1, a2.symm, a3.symm, a4.symm, a5.symm, a6.symm, a7.symm, p.trans p'.symm⟩

/-- C104 between two connections of the crate: the Handshake packet accepted is the Handshake packet built, with the frames the parser finds in its payload, and its bytes are those
that were serialized; or they contain a forgery. -/
theorem C104_handshake {P : Prims} (hP : PrimLaws P) {k : Keys} (hkl : KeyLens k) (bp bp' : Profile) (cs cr : Connection) (ops : List ConnOp)
    (hl : cs.localSecrets .handshake = .ok (secretsOf P k)) (hr : cr.remoteSecrets .handshake = .ok (secretsOf P k)) (s s' : Stream) (q : PacketHandshake)
    (h : decodeNextPacket bp' cr s = (.ok (.handshake q), s')) :
    ∃ out mid, s = makeResultStream out ++ s' ∧
      Describes (.handshake q) q.header.headerByte mid q.packetNumberBytes q.packetNumber.toNat q.packetPayload ∧
      ((∃ p payload fs', SentHs bp cs ops p payload out ∧ (deserializeFrames (makeResultStream payload)).1 = .ok fs' ∧ q = { p with packetPayload := fs' }) ∨
       Forgery P k (CallsFor P k (HsSent bp cs ops)) q.header.headerByte mid q.packetNumberBytes q.packetNumber.toNat out) := by
  obtain ⟨out, hb, lb, pl, skip, L, g1, g2, g3, g4, g6, g7, g11⟩ := handshake_opened hr hkl.2.1 h
  refine ⟨out, _, g1, .handshake g2 g4 g6, ?_⟩
  rw [← bits_long (kind_ge g4 (by decide))] at g7
  rcases opened_authentic hP hkl.2.1 g7 (HsSent bp cs ops) with ⟨x, ⟨p, hb', lb', L', b1, b2, b3, b4, b5, b6, b7⟩, a2, a3, a4, a5, rfl, a7⟩ | hfo
  · left
    obtain ⟨pre, fs, post, a, b, s0, s1, s2, s3, s4, s5, s6, s7⟩ := b1
    obtain ⟨out', o1, ⟨_, _, _, o2, _⟩, o3, o4, o5, o6⟩ := built_handshake hP (c' := (cs.run bp a).2) ((run_secrets bp a cs .handshake).1.trans hl) hkl s1 s2 s3 s4 s5
    have hh := hs_ad_inj g2 b3 g4 o2 g3 o5 (a2.symm.trans b2) (a3.symm.trans b5)
    have hpn : q.packetNumber = p.packetNumber := BitVec.eq_of_toNat_eq (a5.symm.trans b7)
    have hpb : q.packetNumberBytes = p.packetNumberBytes := a4.symm.trans b6
    refine ⟨p, x.payload, q.packetPayload, ⟨pre, fs, post, a, b, s0, s1, s2, s3, s4, s5, s6, ?_⟩, g11, ?_⟩
    · rw [← a7 (by rw [b6]; exact o3)]; exact s7
    · cases q; cases p
      simp only [PacketHandshake.mk.injEq] at hh hpn hpb ⊢
      exact ⟨hh, hpb, hpn, trivial⟩
  · exact Or.inr hfo

/-! Non-trivial instances: a Handshake packet of any RFC sender that is accepted and is in the set of packets sent, a 1-RTT packet, and a Handshake packet in the history of a
connection of the crate. -/

theorem handshakeWire_call {P : Prims} {k : Keys} {h : LongPacketHeader} {pnB : Bytes} {pn : Nat} {payload out : Bytes} (hw : HandshakeWire P k h pnB pn payload out) :
    ∃ mid nonce ad ct tag, h.headerByte.toNat % 4 + 1 = pnB.length ∧ Sent.Call P k ⟨h.headerByte, mid, pnB, pn, payload, out⟩ nonce ad ct tag := by
  obtain ⟨hb, lb, a1, a2, a3, a4, nb, ct, tag, m0, m1, m2, m3, m4, r, b1, b2, b3, b4, b5, b6⟩ := hw
  refine ⟨hb ++ lb, _, _, ct, tag, a3, nb, m0, m1, m2, m3, m4, r, b1, b2, rfl, rfl, b3, b5, ?_⟩
  show out = [h.headerByte ^^^ (m0 &&& protectedBits h.headerByte)] ++ _ ++ _ ++ _ ++ _
  rw [bits_long (kind_ge a2 (by decide))]; exact b6
theorem oneRttWire_call {P : Prims} {k : Keys} {h : ShortPacketHeader} {pnB : Bytes} {pn : Nat} {payload out : Bytes} (hw : OneRttWire P k h pnB pn payload out) :
    ∃ mid nonce ad ct tag, h.headerByte.toNat % 4 + 1 = pnB.length ∧ Sent.Call P k ⟨h.headerByte, mid, pnB, pn, payload, out⟩ nonce ad ct tag := by
  obtain ⟨hb, a1, a2, a3, nb, ct, tag, m0, m1, m2, m3, m4, r, b1, b2, b3, b4, b5, b6⟩ := hw
  refine ⟨hb, _, _, ct, tag, a3, nb, m0, m1, m2, m3, m4, r, b1, b2, rfl, rfl, b3, b5, ?_⟩
  show out = [h.headerByte ^^^ (m0 &&& protectedBits h.headerByte)] ++ _ ++ _ ++ _ ++ _
  rw [bits_short a2]; exact b6

example : ∃ q s' x, decodeNextPacket .debug exHsConn (makeResultStream (exHsOut 4) ++ [.ok 7]) = (.ok q, s') ∧ spaceOf q = some .handshake ∧
    exHsConn.remoteSecrets .handshake = .ok (secretsOf toy exKeys) ∧ x.out = exHsOut 4 ∧ ∃ nonce ad ct tag, CallsFor toy exKeys (· = x) nonce ad ct tag := by
  obtain ⟨mid, nonce, ad, ct, tag, h1, h2⟩ := handshakeWire_call (exHsOut_wire 4 (by decide))
  exact ⟨_, _, ⟨_, mid, _, _, _, _⟩, C53_four_bytes_partial toy toy_laws .debug exHsConn exKeys exKeys_lens rfl rfl (exHsHeader 4) rfl (exPn 4) exPayload (exHsOut 4) 1
    (.ping :: List.replicate 20 .padding) (exHsOut_wire 4 (by decide)) (by decide +kernel) (by decide +kernel) (by decide +kernel) [.ok 7], rfl, rfl, rfl,
    nonce, ad, ct, tag, _, rfl, h1, h2⟩
example : ∃ q s' x, decodeNextPacket .debug exAppConn (makeResultStream (exOneOut 4)) = (.ok q, s') ∧ spaceOf q = some .application ∧
    exAppConn.remoteSecrets .application = .ok (secretsOf toy exKeys) ∧ x.out = exOneOut 4 ∧ ∃ nonce ad ct tag, CallsFor toy exKeys (· = x) nonce ad ct tag := by
  obtain ⟨mid, nonce, ad, ct, tag, h1, h2⟩ := oneRttWire_call (exOneOut_wire 4 (by decide))
  exact ⟨_, _, ⟨_, mid, _, _, _, _⟩, C74_four_bytes_partial toy toy_laws .debug exAppConn exKeys exKeys_lens rfl rfl (exOneHeader 4) rfl (exPn 4) exPayload (exOneOut 4) 1
    (.ping :: List.replicate 20 .padding) (exOneOut_wire 4 (by decide)) (by decide +kernel) (by decide +kernel) (by decide +kernel), rfl, rfl, rfl,
    nonce, ad, ct, tag, _, rfl, h1, h2⟩
example : exHsConn.localSecrets .handshake = .ok (secretsOf toy exKeys) ∧ exHsConn.remoteSecrets .handshake = .ok (secretsOf toy exKeys) ∧
    ∃ p payload out, SentHs .debug exHsConn [.buildHandshake [.crypto ⟨0, 2, [5, 6]⟩]] p payload out ∧
      (decodeNextPacket .debug exHsConn (makeResultStream out)).1 = .ok (.handshake p) := by
  refine ⟨rfl, rfl, ?_⟩
  have hb : (match (do
      let p ← (PacketHandshake.new .debug [.crypto ⟨0, 2, [5, 6]⟩] exHsConn).1
      let b ← serializeFrames [.crypto ⟨0, 2, [5, 6]⟩] false
      let out ← p.serialize exHsConn
      let q ← (decodeNextPacket .debug exHsConn (makeResultStream out)).1
      pure (decide (q = .handshake p ∧ b.length < 2 ^ 30)) : Out Bool) with
    | .ok b => b
    | _ => false) = true := by decide +kernel
  have h0 : IdsOk (exClient.run .debug exOps).2 := (peers_facts toy_laws exPeers exScid).1
  have hi : IdsOk exHsConn := by constructor <;> first | exact h0.1 | exact h0.2 | exact h0.3 | exact h0.4
  cases h1 : (PacketHandshake.new .debug [.crypto ⟨0, 2, [5, 6]⟩] exHsConn).1 with
  | err e => rw [h1] at hb; cases hb
  | panic e => rw [h1] at hb; cases hb
  | ok p =>
    rw [h1, Out.ok_bind] at hb
    cases h2 : serializeFrames [.crypto ⟨0, 2, [5, 6]⟩] false with
    | err e => rw [h2] at hb; cases hb
    | panic e => rw [h2] at hb; cases hb
    | ok b =>
      rw [h2, Out.ok_bind] at hb
      cases h3 : p.serialize exHsConn with
      | err e => rw [h3] at hb; cases hb
      | panic e => rw [h3] at hb; cases hb
      | ok out =>
        rw [h3, Out.ok_bind] at hb
        cases h4 : (decodeNextPacket .debug exHsConn (makeResultStream out)).1 with
        | err e => rw [h4] at hb; cases hb
        | panic e => rw [h4] at hb; cases hb
        | ok q =>
          rw [h4] at hb
          obtain ⟨rfl, hl⟩ := of_decide_eq_true hb
          exact ⟨p, b, out, ⟨[], _, [], [], _, rfl, hi, rfl, h1, h2, hl, rfl, h3⟩, h4⟩

end QuicSea
