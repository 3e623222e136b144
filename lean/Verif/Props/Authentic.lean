import Verif.Props.Malleable
import Verif.Props.Frame
/-
C97: an Initial packet that is accepted is, byte for byte, one that the peer sent, or the AEAD was made to accept a forgery.
-/
namespace Spec
open QuicSea

/-- The call of the AEAD that protects an Initial packet `out` (RFC 9001 section 5.3): its nonce, associated data, ciphertext and tag. -/
def InitialSealed (P : Prims) (k : Keys) (h : LongPacketHeader) (token pnBytes : Bytes) (pn : Nat) (payload nonce ad ct tag out : Bytes) : Prop :=
  ∃ hb tl lb nb m0 m1 m2 m3 m4 r, LongFields h (h.headerByte :: hb) ∧ packetKind h.headerByte h.version = .initial ∧
    h.headerByte.toNat % 4 + 1 = pnBytes.length ∧ IsVarInt tl token.length ∧ IsVarInt lb (pnBytes.length + payload.length + 16) ∧
    nb.length = 8 ∧ beNat nb = pn ∧ nonce = rfcNonce k.iv nb ∧ ad = [h.headerByte] ++ (hb ++ tl ++ token ++ lb) ++ pnBytes ∧
    P.gcmSeal k.key nonce ad payload = some (ct, tag) ∧
    P.aesEcb k.hp (((pnBytes ++ ct ++ tag).drop 4).take 16) = some (m0 :: m1 :: m2 :: m3 :: m4 :: r) ∧
    out = [h.headerByte ^^^ (m0 &&& 0x0f)] ++ (hb ++ tl ++ token ++ lb) ++ pnBytes.zipWith (· ^^^ ·) [m1, m2, m3, m4] ++ ct ++ tag

/-- The unprotected first byte, the bytes up to the packet number, the packet number's bytes, the packet number and the frames of a packet. -/
inductive Describes : Packet → U8 → Bytes → Bytes → Nat → List Frame → Prop where
  | initial {p hb tl lb L} : LongFields p.header (p.header.headerByte :: hb) → packetKind p.header.headerByte p.header.version = .initial →
      IsVarInt tl p.token.length → IsVarInt lb L →
      Describes (.initial p) p.header.headerByte (hb ++ tl ++ p.token ++ lb) p.packetNumberBytes p.packetNumber.toNat p.packetPayload
  | handshake {p hb lb L} : LongFields p.header (p.header.headerByte :: hb) → packetKind p.header.headerByte p.header.version = .handshake →
      IsVarInt lb L → Describes (.handshake p) p.header.headerByte (hb ++ lb) p.packetNumberBytes p.packetNumber.toNat p.packetPayload
  | zeroRtt {p hb lb L} : LongFields p.header (p.header.headerByte :: hb) → packetKind p.header.headerByte p.header.version = .zeroRtt →
      IsVarInt lb L → Describes (.zeroRtt p) p.header.headerByte (hb ++ lb) p.packetNumberBytes p.packetNumber.toNat p.packetPayload
  | oneRtt {p hb} : ShortFields p.header (p.header.headerByte :: hb) → p.header.headerByte.toNat < 128 →
      Describes (.oneRtt p) p.header.headerByte hb p.packetNumberBytes p.packetNumber.toNat p.packetPayload

/-- RFC 9001 section 5.1: whose keys protect a packet. -/
def spaceOf : Packet → Option PnSpace
  | .initial _ => some .initial
  | .handshake _ => some .handshake
  | .zeroRtt _ | .oneRtt _ => some .application
  | .retry _ | .versionNegotiation _ => none

/-- The packet that `out` was opened as, with first byte `first`, `mid` up to the packet number, packet number bytes `pnB` and number `pn`, is a forgery: no
sealing gave its ciphertext and tag with its nonce and associated data. Which those are follows from `out` and the four. -/
def Forgery (P : Prims) (k : Keys) (made : Bytes → Bytes → Bytes → Bytes → Prop) (first : U8) (mid pnB : Bytes) (pn : Nat) (out : Bytes) : Prop :=
  ∃ nb ct tag plain, OpenedFrom P k (protectedBits first) first mid pnB nb ct tag plain out ∧ beNat nb = pn ∧
    ¬ made (rfcNonce k.iv nb) ([first] ++ mid ++ pnB) ct tag

end Spec

namespace QuicSea
open Spec

theorem bits_long {b : U8} (h : 128 ≤ b.toNat) : protectedBits b = 0x0f := by unfold protectedBits; rw [if_neg (by omega)]
theorem bits_short {b : U8} (h : b.toNat < 128) : protectedBits b = 0x1f := if_pos h
theorem kind_ge {b : U8} {v : U32} {t : PacketType} (h : packetKind b v = t) (ht : t ≠ .oneRtt) : 128 ≤ b.toNat := by
  unfold packetKind at h
  split at h
  · exact absurd h.symm ht
  · omega

/-- In the history `ops` of the sender `c0` the Initial packet `p` was built, and serialized to `out`. -/
def SentIn (bp : Profile) (c0 : Connection) (ops : List ConnOp) (p : PacketInitial) (payload out : Bytes) : Prop :=
  ∃ pre fs token post a b, ops = pre ++ .buildInitial fs token :: post ∧ HasScid (c0.run bp pre).2 ∧
    (PacketInitial.new bp fs token (c0.run bp pre).2).1 = .ok p ∧ serializeFrames fs false = .ok payload ∧ payload.length < 2 ^ 30 ∧
    (token.getD []).length < 2 ^ 28 ∧ ops = a ++ b ∧ p.serialize (c0.run bp a).2 = .ok out

/-- The calls of the AEAD the sender made. -/
def Made (P : Prims) (bp : Profile) (k : Keys) (c0 : Connection) (ops : List ConnOp) (nonce ad ct tag : Bytes) : Prop :=
  ∃ p payload out, SentIn bp c0 ops p payload out ∧ InitialSealed P k p.header p.token p.packetNumberBytes p.packetNumber.toNat payload nonce ad ct tag out

theorem initialWire_sealed {P : Prims} {k : Keys} {h : LongPacketHeader} {token pnB : Bytes} {pn : Nat} {payload out : Bytes}
    (hw : InitialWire P k h token pnB pn payload out) : ∃ nonce ad ct tag, InitialSealed P k h token pnB pn payload nonce ad ct tag out := by
  obtain ⟨hb, tl, lb, a1, a2, a3, a4, a5, nb, ct, tag, m0, m1, m2, m3, m4, r, b1, b2, b3, b4, b5, b6⟩ := hw
  exact ⟨_, _, ct, tag, hb, tl, lb, nb, m0, m1, m2, m3, m4, r, a1, a2, a3, a4, a5, b1, b2, rfl, rfl, b3, b5, b6⟩

theorem kind_initial_ge {b : U8} {v : U32} (h : packetKind b v = .initial) : 128 ≤ b.toNat := by
  unfold packetKind at h
  split at h
  · cases h
  · omega

theorem varInt_prefix {a b : Bytes} {n m : Nat} (ha : IsVarInt a n) (hb : IsVarInt b m) {x y : Bytes} (h : a ++ x = b ++ y) : a = b ∧ n = m ∧ x = y := by
  have hn : n < 2 ^ 64 := by have := ha.lt; omega
  have hm : m < 2 ^ 64 := by have := hb.lt; omega
  have r1 := varIntWithBytes_reads (v := BitVec.ofNat 64 n) (by rw [ofNat64_toNat hn]; exact ha) (makeResultStream x)
  have r2 := varIntWithBytes_reads (v := BitVec.ofNat 64 m) (by rw [ofNat64_toNat hm]; exact hb) (makeResultStream y)
  rw [← makeResultStream_append, h, makeResultStream_append, r2] at r1
  simp only [Prod.mk.injEq, Out.ok.injEq] at r1
  refine ⟨r1.1.2.symm, ?_, (makeResultStream_inj r1.2).symm⟩
  have := congrArg BitVec.toNat r1.1.1
  rw [ofNat64_toNat hn, ofNat64_toNat hm] at this
  exact this.symm

/-- The associated data of an Initial packet determine its header, token and packet number bytes. -/
theorem ad_inj {h h' : LongPacketHeader} {hb tl lb hb' tl' lb' token token' pnB pnB' : Bytes} {L L' : Nat}
    (f : LongFields h (h.headerByte :: hb)) (f' : LongFields h' (h'.headerByte :: hb')) (k : packetKind h.headerByte h.version = .initial)
    (k' : packetKind h'.headerByte h'.version = .initial) (p : h.isProtected = false) (p' : h'.isProtected = false)
    (t : IsVarInt tl token.length) (t' : IsVarInt tl' token'.length) (l : IsVarInt lb L) (l' : IsVarInt lb' L')
    (e : [h.headerByte] ++ (hb ++ tl ++ token ++ lb) ++ pnB = [h'.headerByte] ++ (hb' ++ tl' ++ token' ++ lb') ++ pnB') :
    h = h' ∧ hb = hb' ∧ tl = tl' ∧ token = token' ∧ lb = lb' ∧ pnB = pnB' := by
  simp only [List.append_assoc, List.cons_append, List.nil_append, List.cons.injEq] at e
  obtain ⟨e1, e2⟩ := e
  have r := long_reads (h := { h with isProtected := true }) (bs := hb) (unprot_fields f) (kind_initial_ge k) (by show true = _; rw [k]; rfl)
    (makeResultStream (tl ++ (token ++ (lb ++ pnB))))
  have r' := long_reads (h := { h' with isProtected := true }) (bs := hb') (unprot_fields f') (kind_initial_ge k') (by show true = _; rw [k']; rfl)
    (makeResultStream (tl' ++ (token' ++ (lb' ++ pnB'))))
  rw [← makeResultStream_append, e2, makeResultStream_append] at r
  dsimp only at r r'
  rw [e1, r'] at r
  simp only [Prod.mk.injEq, Out.ok.injEq] at r
  have e3 := makeResultStream_inj r.2
  have hh : h = h' := by
    have := r.1
    cases h; cases h'
    simp only [LongPacketHeader.mk.injEq] at this p p' e1 ⊢
    obtain ⟨-, a2, a3, a4, a5, a6, a7, -⟩ := this
    exact ⟨e1, a2.symm, a3.symm, a4.symm, a5.symm, a6.symm, a7.symm, p.trans p'.symm⟩
  obtain ⟨v1, v2, e4⟩ := varInt_prefix t' t e3
  obtain ⟨w1, e5⟩ := List.append_inj e4 v2
  obtain ⟨x1, -, x3⟩ := varInt_prefix l' l e5
  refine ⟨hh, ?_, v1.symm, w1.symm, x1.symm, x3.symm⟩
  subst hh
  have := longFields_inj f f'
  simpa using this

theorem rfcNonce_inj {iv a b : Bytes} (hiv : iv.length = 12) (ha : a.length = 8) (hb : b.length = 8) (h : rfcNonce iv a = rfcNonce iv b) : a = b := by
  unfold rfcNonce at h
  have := zipWith_xor_inj (by simp; omega) (by simp; omega) h
  exact (List.append_inj' this (by omega)).2

/-- Every packet of a decoded list was decoded at some place in the stream. -/
theorem decodePackets_mem {bp : Profile} {c : Connection} {s s' : Stream} {ps : List Packet} (h : decodePackets bp c s = (.ok ps, s')) :
    ∀ p ∈ ps, ∃ s1 s2, s1 <:+ s ∧ decodeNextPacket bp c s1 = (.ok p, s2) := by
  induction ps generalizing s with
  | nil => simp
  | cons x ps ih =>
    by_cases hs : s = []
    · subst hs
      rw [decodePackets_nil] at h
      cases h
    · rw [decodePackets_eq bp c s hs] at h
      obtain ⟨p, t, hp, h⟩ := Rd.bind_eq_ok h
      obtain ⟨l, t2, hl, h⟩ := Rd.bind_eq_ok h
      cases h
      intro y hy
      rcases List.mem_cons.1 hy with rfl | hy
      · exact ⟨s, t, List.suffix_refl _, hp⟩
      · obtain ⟨s1, s2, a1, a2⟩ := ih hl y hy
        exact ⟨s1, s2, a1.trans (decodeNext_consumes bp c _ _ _ hp).1, a2⟩

theorem mrs_split {data : Bytes} {s t : Stream} (h : makeResultStream data = s ++ t) : ∃ a b, data = a ++ b ∧ s = makeResultStream a ∧ t = makeResultStream b := by
  unfold makeResultStream at h ⊢
  obtain ⟨a, b, rfl, rfl, rfl⟩ := List.map_eq_append_iff.1 h
  exact ⟨a, b, rfl, rfl, rfl⟩

section
variable {P : Prims} (hP : PrimLaws P) {bp bp' : Profile} {server : Bool} {v : Version} {d : U160} {n : Nat} {cs0 cr0 : Connection}
  (hn : n ≤ 20) (hd : cidVal d < 256 ^ n)
  (h1 : Connection.new P server v d n = .ok cs0) (h2 : Connection.new P (!server) v d n = .ok cr0)
include hP hn hd h1 h2

/-- Every packet sent is protected by a call of the AEAD, under the receiver's key. -/
theorem C97_sent_sealed {k : Keys} {ops' : List ConnOp} (hk : (cr0.run bp' ops').2.remoteSecrets .initial = .ok (secretsOf P k)) {ops : List ConnOp} {p : PacketInitial} {payload out : Bytes}
    (hs : SentIn bp cs0 ops p payload out) :
    InitialWire P k p.header p.token p.packetNumberBytes p.packetNumber.toNat payload out ∧ p.packetNumberBytes.length = 4 ∧ p.header.isProtected = false ∧
    ∃ nonce ad ct tag, InitialSealed P k p.header p.token p.packetNumberBytes p.packetNumber.toNat payload nonce ad ct tag out := by
  obtain ⟨pre, fs, token, post, a, b, -, s1, s2, s3, s4, s5, -, s6⟩ := hs
  obtain ⟨hc, -, a1, -, -, rr⟩ := peers_facts hP (bp := bp) (bp' := bp') (cs := (cs0.run bp pre).2) (cr := (cr0.run bp' ops').2)
    ⟨server, v, d, n, cs0, cr0, pre, ops', hn, hd, h1, h2, rfl, rfl⟩ s1
  have hag : ∀ l, (cs0.run bp l).2.localSecrets .initial = (cr0.run bp' ops').2.remoteSecrets .initial := by
    intro l
    cases server with
    | false => exact (C30_agreement_kept P bp bp' v d n cs0 cr0 h1 h2 l ops').1
    | true => exact (C30_agreement_kept P bp' bp v d n cr0 cs0 h2 h1 ops' l).2
  obtain ⟨out', o1, o2, o3, o4, o5, -, -⟩ := built_initial hP (c' := (cs0.run bp a).2) ((hag a).trans hk) (reachable_iv hP rr hk) hc a1 s2 s3 s4 s5
  rw [s6] at o1
  cases o1
  exact ⟨o2, o3, o5, initialWire_sealed o2⟩

/-- C97. Whatever the network does: an Initial packet accepted from any stream, at any time, is one that the peer sent: its bytes are those of the peer's packet, and so are its header,
token, number and payload; or the stream contains a forgery. -/
theorem C97_authentic {k : Keys} {ops' : List ConnOp} (hk : (cr0.run bp' ops').2.remoteSecrets .initial = .ok (secretsOf P k)) (ops : List ConnOp)
    (s s' : Stream) (q : PacketInitial) (h : decodeNextPacket bp' (cr0.run bp' ops').2 s = (.ok (.initial q), s')) :
    ∃ out mid, s = makeResultStream out ++ s' ∧ Describes (.initial q) q.header.headerByte mid q.packetNumberBytes q.packetNumber.toNat q.packetPayload ∧
      ((∃ p payload fs', SentIn bp cs0 ops p payload out ∧ (deserializeFrames (makeResultStream payload)).1 = .ok fs' ∧ q = { p with packetPayload := fs' }) ∨
       Forgery P k (Made P bp k cs0 ops) q.header.headerByte mid q.packetNumberBytes q.packetNumber.toNat out) := by
  have rr : Connection.Reachable P bp' (cr0.run bp' ops').2 := ⟨_, v, d, n, cr0, ops', h2, rfl⟩
  have hiv := (reachable_iv hP rr hk).2.1
  obtain ⟨out, hb, tl, lb, pl, skip, L, g1, g2, g3, g4, g5, g6, g7, -, -, -, g11⟩ := initial_opened hk hiv h
  refine ⟨out, _, g1, .initial g2 g4 g5 g6, ?_⟩
  obtain ⟨nb, ct, tag, m0, m1, m2, m3, m4, r, pnM, i1, i2, i3, i4, i5, i6, i7, i8, i9⟩ := g7
  by_cases hm : Made P bp k cs0 ops (rfcNonce k.iv nb) ([q.header.headerByte] ++ (hb ++ tl ++ q.token ++ lb) ++ q.packetNumberBytes) ct tag
  · left
    obtain ⟨p, payload, out', hs, hb', tl', lb', nb', n0, n1, n2, n3, n4, r', j1, j2, j3, j4, j5, j6, j7, j8, j9, j10, j11, j12⟩ := hm
    obtain ⟨-, w4, wp, -⟩ := C97_sent_sealed hP hn hd h1 h2 hk hs
    obtain ⟨x1, rfl, rfl, x4, rfl, x6⟩ := ad_inj g2 j1 g4 j2 g3 wp g5 j4 g6 j5 j9
    obtain rfl := rfcNonce_inj hiv i1 j6 j8
    have hpl : payload = pl := by
      have := hP.open_seal _ _ _ _ _ _ j10
      rw [i8] at this
      exact (Option.some.inj this).symm
    subst hpl
    have hpn : q.packetNumber = p.packetNumber := BitVec.eq_of_toNat_eq (i2.symm.trans j7)
    have hskip : skip = [] := by
      have : pnM.length = 4 := by
        rw [i4, x1, j3]; exact w4
      rw [List.length_append] at i5
      exact List.eq_nil_of_length_eq_zero (by omega)
    subst hskip
    have hout : out = out' := by
      rw [List.append_assoc, List.drop_append, w4, List.drop_eq_nil_of_le (by omega)] at j11
      simp only [List.nil_append, Nat.sub_self, List.drop_zero] at j11
      rw [i7] at j11
      simp only [Option.some.injEq, List.cons.injEq] at j11
      obtain ⟨rfl, rfl, rfl, rfl, rfl, rfl⟩ := j11
      rw [i9, j12, ← x1, ← x4, ← x6, i6, zipWith_xor_twice _ _ (by simp only [List.length_cons, List.length_nil, List.append_nil] at i5 ⊢; omega)]
      simp
    subst hout
    refine ⟨p, payload, q.packetPayload, hs, g11, ?_⟩
    cases q; cases p
    simp only [PacketInitial.mk.injEq] at x1 x4 x6 hpn ⊢
    exact ⟨x1, x4, hpn, x6, trivial⟩
  · right
    refine ⟨nb, ct, tag, pl, ⟨m0, m1, m2, m3, m4, r, pnM, skip, i1, i3, i4, i5, i6, i7, i8, ?_⟩, i2, hm⟩
    rw [bits_long (kind_ge g4 (by decide))]; exact i9

/-- C97. When every frame list the sender builds packets from is well formed and free of the frames the frame codec damages (C11, C12), the packet accepted is the packet built. -/
theorem C97_authentic_plain {k : Keys} {ops' : List ConnOp} (hk : (cr0.run bp' ops').2.remoteSecrets .initial = .ok (secretsOf P k)) (ops : List ConnOp)
    (hf : ∀ fs token, .buildInitial fs token ∈ ops → (∀ f ∈ fs, WellFormed f) ∧ (∀ f ∈ fs, Plain f))
    (s s' : Stream) (q : PacketInitial) (h : decodeNextPacket bp' (cr0.run bp' ops').2 s = (.ok (.initial q), s')) :
    ∃ out mid, s = makeResultStream out ++ s' ∧ Describes (.initial q) q.header.headerByte mid q.packetNumberBytes q.packetNumber.toNat q.packetPayload ∧
      ((∃ payload, SentIn bp cs0 ops q payload out) ∨ Forgery P k (Made P bp k cs0 ops) q.header.headerByte mid q.packetNumberBytes q.packetNumber.toNat out) := by
  obtain ⟨out, mid, g1, gd, g2⟩ := C97_authentic (bp := bp) hP hn hd h1 h2 hk ops s s' q h
  refine ⟨out, mid, g1, gd, ?_⟩
  rcases g2 with ⟨p, payload, fs', hs, hfs, rfl⟩ | hfo
  · left
    refine ⟨payload, ?_⟩
    obtain ⟨pre, fs, token, post, a, b, s0, s1, s2, s3, s4, s5, s6, s7⟩ := hs
    obtain ⟨w, pl⟩ := hf fs token (by rw [s0]; simp)
    obtain ⟨bs, e1, e2⟩ := C10_frames_round_trip fs false w pl
    rw [s3] at e1
    cases e1
    rw [e2] at hfs
    cases hfs
    obtain ⟨-, -, -, -, -, -, -, -, e7, -⟩ := initialNew_facts s2
    have : ({ p with packetPayload := fs' } : PacketInitial) = p := by cases p; cases e7; rfl
    rw [this]
    exact ⟨pre, _, token, post, a, b, s0, s1, s2, s3, s4, s5, s6, s7⟩
  · exact Or.inr hfo

/-- C97. A whole datagram: each Initial packet found in it is a packet the peer sent, at some place in the datagram, or there is a forgery at that place. -/
theorem C97_datagram {k : Keys} {ops' : List ConnOp} (hk : (cr0.run bp' ops').2.remoteSecrets .initial = .ok (secretsOf P k)) (ops : List ConnOp)
    (data : Bytes) (ps : List Packet) (s' : Stream) (h : decodePackets bp' (cr0.run bp' ops').2 (makeResultStream data) = (.ok ps, s'))
    (q : PacketInitial) (hq : .initial q ∈ ps) :
    ∃ before out after mid, data = before ++ out ++ after ∧ Describes (.initial q) q.header.headerByte mid q.packetNumberBytes q.packetNumber.toNat q.packetPayload ∧
      ((∃ p payload fs', SentIn bp cs0 ops p payload out ∧ (deserializeFrames (makeResultStream payload)).1 = .ok fs' ∧ q = { p with packetPayload := fs' }) ∨
       Forgery P k (Made P bp k cs0 ops) q.header.headerByte mid q.packetNumberBytes q.packetNumber.toNat out) := by
  obtain ⟨s1, s2, hsuf, hs⟩ := decodePackets_mem h _ hq
  obtain ⟨out, mid, g1, gd, g2⟩ := C97_authentic (bp := bp) hP hn hd h1 h2 hk ops s1 s2 q hs
  obtain ⟨t, ht⟩ := hsuf
  obtain ⟨a, b, rfl, -, hb⟩ := mrs_split ht.symm
  rw [g1] at hb
  obtain ⟨x, y, rfl, hx, -⟩ := mrs_split hb.symm
  exact ⟨a, x, y, mid, by simp, gd, by rw [← makeResultStream_inj hx]; exact g2⟩

/-- C97. Before the peer has built any Initial packet, whatever is accepted is a forgery. -/
theorem C97_nothing_sent {k : Keys} {ops' : List ConnOp} (hk : (cr0.run bp' ops').2.remoteSecrets .initial = .ok (secretsOf P k)) (ops : List ConnOp)
    (hno : ∀ fs token, .buildInitial fs token ∉ ops)
    (s s' : Stream) (q : PacketInitial) (h : decodeNextPacket bp' (cr0.run bp' ops').2 s = (.ok (.initial q), s')) :
    ∃ out mid, s = makeResultStream out ++ s' ∧ Describes (.initial q) q.header.headerByte mid q.packetNumberBytes q.packetNumber.toNat q.packetPayload ∧
      Forgery P k (Made P bp k cs0 ops) q.header.headerByte mid q.packetNumberBytes q.packetNumber.toNat out := by
  have no : ∀ p payload out, ¬ SentIn bp cs0 ops p payload out := by
    rintro p payload out ⟨pre, fs, token, post, a, b, s0, -⟩
    exact hno fs token (by rw [s0]; simp)
  obtain ⟨out, mid, g1, gd, g2⟩ := C97_authentic (bp := bp) hP hn hd h1 h2 hk ops s s' q h
  refine ⟨out, mid, g1, gd, ?_⟩
  rcases g2 with ⟨p, payload, fs', hs, -⟩ | hfo
  · exact absurd hs (no _ _ _)
  · exact hfo
/-- C97. The two cases exclude one another: a packet the peer sent is no forgery. -/
theorem C97_genuine {k : Keys} {ops' : List ConnOp} (hk : (cr0.run bp' ops').2.remoteSecrets .initial = .ok (secretsOf P k)) (ops : List ConnOp)
    (p : PacketInitial) (payload out : Bytes) (hs : SentIn bp cs0 ops p payload out) :
    ∃ mid, Describes (.initial p) p.header.headerByte mid p.packetNumberBytes p.packetNumber.toNat p.packetPayload ∧
      ¬ Forgery P k (Made P bp k cs0 ops) p.header.headerByte mid p.packetNumberBytes p.packetNumber.toNat out := by
  obtain ⟨-, h4, -, nonce, ad, ct, tag, hw⟩ := C97_sent_sealed hP hn hd h1 h2 hk hs
  obtain ⟨hb, tl, lb, nb, m0, m1, m2, m3, m4, r, j1, j2, j3, j4, j5, j6, j7, rfl, rfl, j10, j11, j12⟩ := id hw
  refine ⟨hb ++ tl ++ p.token ++ lb, .initial j1 j2 j4 j5, ?_⟩
  rintro ⟨nb', ct', tag', plain, ⟨n0, n1, n2, n3, n4, r', pnM, skip, i1, i3, i4, i5, i6, i7, i8, i9⟩, hn, hm⟩
  obtain ⟨-, l2⟩ := hP.seal_length _ _ _ _ _ _ j10
  obtain rfl : nb' = nb := beNat_inj (i1.trans j6.symm) (hn.trans j7.symm)
  rw [j12, List.append_assoc _ pnM, List.append_assoc _ ct, List.append_assoc _ ct'] at i9
  obtain ⟨e, e'⟩ := List.append_inj i9 (by
    simp only [List.length_append, List.length_zipWith, h4, List.length_cons, List.length_nil] at i5 ⊢; omega)
  obtain ⟨rfl, rfl⟩ := List.append_inj' e' (l2.trans i3.symm)
  exact hm ⟨p, payload, out, hs, hw⟩
end

/-- Non-trivial instance: the third packet of the client of the toy instance, received by the server: it is in the history, and `C97_authentic` applies to it. -/
def exHist : List ConnOp := exOps ++ [.buildInitial [.crypto ⟨0, 3, [1, 2, 3]⟩, .ping] (some [9, 9, 9])]
example : ∃ p payload out, SentIn .debug exClient exHist p payload out ∧ p.packetNumber = 3 ∧ out.length = 49 ∧
    decodeNextPacket .debug exConn (makeResultStream out) = (.ok (.initial p), []) ∧
    ∃ k, exConn.remoteSecrets .initial = .ok (secretsOf toy k) ∧ (∃ nonce ad ct tag, Made toy .debug k exClient exHist nonce ad ct tag) ∧
      ∃ mid, ¬ Forgery toy k (Made toy .debug k exClient exHist) p.header.headerByte mid p.packetNumberBytes p.packetNumber.toNat out := by
  obtain ⟨p, hp⟩ := C31_builds toy .debug false .v1 ⟨0, 0x0102030405060708⟩ 8 exClient exClient_new exOps (by decide) exScid
    [.crypto ⟨0, 3, [1, 2, 3]⟩, .ping] (some [9, 9, 9])
  have hpl : ∀ f ∈ [Frame.crypto ⟨0, 3, [1, 2, 3]⟩, .ping], Plain f := by
    intro f hf
    simp only [List.mem_cons, List.not_mem_nil, or_false] at hf
    rcases hf with rfl | rfl <;> simp [Plain]
  obtain ⟨bs, hbs, -⟩ := C10_frames_round_trip [.crypto ⟨0, 3, [1, 2, 3]⟩, .ping] false (by decide +kernel) hpl
  have hlen : ∀ bs, serializeFrames [.crypto ⟨0, 3, [1, 2, 3]⟩, .ping] false = .ok bs → bs.length < 2 ^ 30 := by
    intro bs hbs
    have : (match serializeFrames [.crypto ⟨0, 3, [1, 2, 3]⟩, .ping] false with | .ok b => decide (b.length < 2 ^ 30) | _ => true) = true := by decide +kernel
    rw [hbs] at this; exact of_decide_eq_true this
  obtain ⟨-, -, out, h3, h4⟩ := C31_round_trip_partial toy toy_laws .debug .debug _ _ exPeers exScid [.crypto ⟨0, 3, [1, 2, 3]⟩, .ping] (by decide +kernel) hpl
    (some [9, 9, 9]) hlen (by decide) p hp []
  obtain ⟨-, ⟨k, -, -, m2⟩, -⟩ := peers_facts toy_laws exPeers exScid
  have hs : SentIn .debug exClient exHist p bs out := ⟨exOps, _, _, [], exOps, _, rfl, exScid, hp, hbs, hlen _ hbs, by decide, rfl, h3⟩
  have hnum : (match exSend [.crypto ⟨0, 3, [1, 2, 3]⟩, .ping] with | .ok (out, .initial q) => decide (q.packetNumber = 3 ∧ out.length = 49) | _ => false) = true := by
    decide +kernel
  have h5 : exSend [.crypto ⟨0, 3, [1, 2, 3]⟩, .ping] = .ok (out, .initial p) := by
    unfold exSend
    rw [hp, Out.ok_bind, show p.serialize (exClient.run .debug exOps).2 = .ok out from h3, Out.ok_bind]
    have := h4 []
    rw [List.append_nil] at this
    rw [this]; rfl
  rw [h5] at hnum
  obtain ⟨n1, n2⟩ := of_decide_eq_true hnum
  have := h4 []
  rw [List.append_nil] at this
  obtain ⟨-, -, -, nonce, ad, ct, tag, hm⟩ := C97_sent_sealed (bp := .debug) (bp' := .debug) (ops' := []) toy_laws (by decide) (by decide +kernel) exClient_new exConn_new m2 hs
  obtain ⟨mid, -, hg⟩ := C97_genuine (bp := .debug) (bp' := .debug) (ops' := []) toy_laws (by decide) (by decide +kernel) exClient_new exConn_new m2 exHist p bs out hs
  exact ⟨p, bs, out, hs, n1, n2, this, k, m2, ⟨nonce, ad, ct, tag, p, bs, out, hs, hm⟩, mid, hg⟩

end QuicSea
