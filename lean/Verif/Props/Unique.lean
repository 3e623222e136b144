import Verif.Props.AuthenticAll
import Verif.Props.Usage
/-
C112: the bytes of a protected packet determine the packet. Two packets protected under the same keys (Initial, Handshake, 0-RTT or 1-RTT,
with packet numbers of one to four bytes) of which one begins the other have the same header, token and packet number bytes, and, if they carry
the same number, the same payload; so packets sent by one connection of the crate never coincide on the wire, and a datagram has one reading.
-/
namespace QuicSea
open Spec

/-- The sample for header protection does not depend on the masking of the packet number. -/
theorem sample_masked {a r m : Bytes} (ha : a.length ≤ 4) (hm : m.length = 4) : ((a.zipWith (· ^^^ ·) m ++ r).drop 4).take 16 = ((a ++ r).drop 4).take 16 := by
  have l : (a.zipWith (· ^^^ ·) m).length = a.length := by rw [List.length_zipWith]; omega
  rw [List.drop_append, List.drop_append, l, List.drop_eq_nil_of_le (by omega), List.drop_eq_nil_of_le ha]

theorem xor_right_cancel' {a b c : U8} (h : a ^^^ c = b ^^^ c) : a = b := by
  have := congrArg (· ^^^ c) h
  simpa [BitVec.xor_assoc] using this

theorem protected_length {P : Prims} (hP : PrimLaws P) {k : Keys} {mb first : U8} {mid pnB pl out : Bytes} {pn : Nat} (hl : pnB.length ≤ 4)
    (h : Protected P k mb first mid pnB pn pl out) : out.length = 1 + mid.length + pnB.length + pl.length + 16 := by
  obtain ⟨nb, ct, tag, m0, m1, m2, m3, m4, r, h1, h2, h3, h4, h5, h6⟩ := h
  obtain ⟨l1, l2⟩ := hP.seal_length _ _ _ _ _ _ h3
  rw [h6]
  simp only [List.length_append, List.length_cons, List.length_nil, List.length_zipWith]
  omega

/-- RFC 9001 section 5.4 can be undone in one way only. -/
theorem protected_unique {P : Prims} (hP : PrimLaws P) {k : Keys} {mb first first' : U8} {mid mid' pnB pnB' pl pl' out : Bytes} {pn pn' : Nat}
    (hm : mid.length = mid'.length) (hf : first.toNat % 4 + 1 = pnB.length) (hf' : first'.toNat % 4 + 1 = pnB'.length)
    (h : Protected P k mb first mid pnB pn pl out) (h' : Protected P k mb first' mid' pnB' pn' pl' out) :
    first = first' ∧ mid = mid' ∧ pnB = pnB' ∧ (pn = pn' → pl = pl') := by
  obtain ⟨nb, ct, tag, m0, m1, m2, m3, m4, r, h1, h2, h3, h4, h5, h6⟩ := h
  obtain ⟨nb', ct', tag', m0', m1', m2', m3', m4', r', h1', h2', h3', h4', h5', h6'⟩ := h'
  obtain ⟨l1, l2⟩ := hP.seal_length _ _ _ _ _ _ h3
  obtain ⟨l1', l2'⟩ := hP.seal_length _ _ _ _ _ _ h3'
  rw [h6] at h6'
  simp only [List.append_assoc, List.cons_append, List.nil_append, List.cons.injEq] at h6'
  obtain ⟨e1, e2⟩ := h6'
  obtain ⟨e3, e4⟩ := List.append_inj e2 hm
  rw [List.append_assoc, ← sample_masked (m := [m1, m2, m3, m4]) (by omega) rfl] at h5
  rw [List.append_assoc, ← sample_masked (m := [m1', m2', m3', m4']) (by omega) rfl, ← e4, h5] at h5'
  simp only [Option.some.injEq, List.cons.injEq] at h5'
  obtain ⟨rfl, rfl, rfl, rfl, rfl, rfl⟩ := h5'
  have e5 := xor_right_cancel' e1
  subst e5
  have hl : pnB.length = pnB'.length := by omega
  obtain ⟨e6, e7⟩ := List.append_inj e4 (by rw [List.length_zipWith, List.length_zipWith, hl])
  have e8 : pnB = pnB' := by
    rw [← zipWith_xor_twice pnB [m1, m2, m3, m4] (by simp; omega), e6, zipWith_xor_twice pnB' _ (by simp; omega)]
  subst e8 e3
  refine ⟨rfl, rfl, rfl, fun hn => ?_⟩
  obtain ⟨e9, e10⟩ := List.append_inj' e7 (by omega)
  have e11 : nb = nb' := beNat_inj (by omega) (by omega)
  subst e9 e10 e11
  have a := hP.open_seal _ _ _ _ _ _ h3
  rw [hP.open_seal _ _ _ _ _ _ h3'] at a
  exact (Option.some.inj a).symm

theorem protected_first {P : Prims} {k : Keys} {mb first : U8} {mid pnB pl out : Bytes} {pn : Nat} (h : Protected P k mb first mid pnB pn pl out) :
    ∃ m rest, out = (first ^^^ (m &&& mb)) :: (mid ++ rest) := by
  obtain ⟨nb, ct, tag, m0, m1, m2, m3, m4, r, h1, h2, h3, h4, h5, h6⟩ := h
  exact ⟨m0, pnB.zipWith (· ^^^ ·) [m1, m2, m3, m4] ++ ct ++ tag, by rw [h6]; simp⟩

/-- Two long headers that begin the same bytes, up to the protected bits of the first byte. -/
theorem longFields_prefix {h h' : LongPacketHeader} {hb hb' r r' : Bytes} {b m m' : U8} {t t' : PacketType} (ht : protectable t = true) (ht' : protectable t' = true)
    (k : packetKind h.headerByte h.version = t) (k' : packetKind h'.headerByte h'.version = t') (n : t ≠ .oneRtt)
    (e1 : b = h.headerByte ^^^ (m &&& 0x0f)) (e2 : b = h'.headerByte ^^^ (m' &&& 0x0f))
    (f : LongFields h (h.headerByte :: hb)) (f' : LongFields h' (h'.headerByte :: hb')) (e : hb ++ r = hb' ++ r') :
    hb = hb' ∧ r = r' ∧ { h with headerByte := b, isProtected := true } = { h' with headerByte := b, isProtected := true } := by
  have kb : packetKind b h.version = t := by rw [e1, kind_xor]; exact k
  have kb' : packetKind b h'.version = t' := by rw [e2, kind_xor]; exact k'
  have ge : 128 ≤ b.toNat := kind_long (v := h.version) (by rw [kb]; exact n)
  have q := long_reads (h := { h with headerByte := b, isProtected := true }) (bs := hb) (unprot_fields f) ge (by show true = _; rw [kb, ht])
    (makeResultStream r)
  have q' := long_reads (h := { h' with headerByte := b, isProtected := true }) (bs := hb') (unprot_fields f') ge (by show true = _; rw [kb', ht'])
    (makeResultStream r')
  rw [← makeResultStream_append, e, makeResultStream_append, q'] at q
  simp only [Prod.mk.injEq, Out.ok.injEq] at q
  obtain ⟨q1, q2⟩ := q
  have q2 := makeResultStream_inj q2
  subst q2
  exact ⟨List.append_cancel_right e, rfl, q1.symm⟩

theorem header_eq {h h' : LongPacketHeader} {b : U8} (p : h.isProtected = false) (p' : h'.isProtected = false) (e : h.headerByte = h'.headerByte)
    (q : { h with headerByte := b, isProtected := true } = { h' with headerByte := b, isProtected := true }) : h = h' := by
  cases h; cases h'
  simp only [LongPacketHeader.mk.injEq] at *
  simp_all

/-- C112 for Initial packets: if one begins the other (or both begin the same datagram) they are the same packet. -/
theorem C112_initial_unique {P : Prims} (hP : PrimLaws P) (k : Keys) (h h' : LongPacketHeader) (token token' pnB pnB' payload payload' out out' x y : Bytes) (pn pn' : Nat)
    (p : h.isProtected = false) (p' : h'.isProtected = false) (w : InitialWire P k h token pnB pn payload out) (w' : InitialWire P k h' token' pnB' pn' payload' out')
    (e : out ++ x = out' ++ y) : h = h' ∧ token = token' ∧ pnB = pnB' ∧ out = out' ∧ x = y ∧ (pn = pn' → payload = payload') := by
  obtain ⟨hb, tl, lb, a1, a2, a3, a4, a5, a6⟩ := w
  obtain ⟨hb', tl', lb', b1, b2, b3, b4, b5, b6⟩ := w'
  have hpl : pnB.length ≤ 4 := by omega
  have hpl' : pnB'.length ≤ 4 := by omega
  have n1 := protected_length hP hpl a6
  have n2 := protected_length hP hpl' b6
  obtain ⟨m, rest, o1⟩ := protected_first a6
  obtain ⟨m', rest', o2⟩ := protected_first b6
  have e' := e
  rw [o1, o2] at e'
  simp only [List.append_assoc, List.cons_append, List.cons.injEq] at e'
  obtain ⟨e1, e2⟩ := e'
  obtain ⟨q1, q2, q3⟩ := longFields_prefix (t := .initial) (t' := .initial) rfl rfl a2 b2 (by decide) rfl e1 a1 b1 e2
  obtain ⟨rfl, q4, q5⟩ := varInt_prefix a4 b4 q2
  obtain ⟨rfl, q6⟩ := List.append_inj q5 q4
  obtain ⟨rfl, q7, q8⟩ := varInt_prefix a5 b5 q6
  subst q1
  obtain ⟨rfl, rfl⟩ := List.append_inj e (by omega)
  obtain ⟨u1, u2, u3, u4⟩ := protected_unique hP rfl a3 b3 a6 b6
  exact ⟨header_eq p p' u1 q3, rfl, u3, rfl, rfl, u4⟩

theorem long_unique {P : Prims} (hP : PrimLaws P) {k : Keys} {h h' : LongPacketHeader} {hb hb' lb lb' pnB pnB' payload payload' out out' x y : Bytes} {pn pn' : Nat} {t : PacketType}
    (p : h.isProtected = false) (p' : h'.isProtected = false) (ht : protectable t = true) (n : t ≠ .oneRtt)
    (a1 : LongFields h (h.headerByte :: hb)) (b1 : LongFields h' (h'.headerByte :: hb'))
    (a2 : packetKind h.headerByte h.version = t) (b2 : packetKind h'.headerByte h'.version = t)
    (a3 : h.headerByte.toNat % 4 + 1 = pnB.length) (b3 : h'.headerByte.toNat % 4 + 1 = pnB'.length)
    (a5 : IsVarInt lb (pnB.length + payload.length + 16)) (b5 : IsVarInt lb' (pnB'.length + payload'.length + 16))
    (a6 : Protected P k 0x0f h.headerByte (hb ++ lb) pnB pn payload out) (b6 : Protected P k 0x0f h'.headerByte (hb' ++ lb') pnB' pn' payload' out')
    (e : out ++ x = out' ++ y) : h = h' ∧ pnB = pnB' ∧ out = out' ∧ x = y ∧ (pn = pn' → payload = payload') := by
  have hpl : pnB.length ≤ 4 := by omega
  have hpl' : pnB'.length ≤ 4 := by omega
  have n1 := protected_length hP hpl a6
  have n2 := protected_length hP hpl' b6
  obtain ⟨m, rest, o1⟩ := protected_first a6
  obtain ⟨m', rest', o2⟩ := protected_first b6
  have e' := e
  rw [o1, o2] at e'
  simp only [List.append_assoc, List.cons_append, List.cons.injEq] at e'
  obtain ⟨e1, e2⟩ := e'
  obtain ⟨q1, q2, q3⟩ := longFields_prefix ht ht a2 b2 n rfl e1 a1 b1 e2
  obtain ⟨rfl, q7, q8⟩ := varInt_prefix a5 b5 q2
  subst q1
  obtain ⟨rfl, rfl⟩ := List.append_inj e (by omega)
  obtain ⟨u1, u2, u3, u4⟩ := protected_unique hP rfl a3 b3 a6 b6
  exact ⟨header_eq p p' u1 q3, u3, rfl, rfl, u4⟩

/-- C112 for Handshake packets. -/
theorem C112_handshake_unique {P : Prims} (hP : PrimLaws P) (k : Keys) (h h' : LongPacketHeader) (pnB pnB' payload payload' out out' x y : Bytes) (pn pn' : Nat)
    (p : h.isProtected = false) (p' : h'.isProtected = false) (w : HandshakeWire P k h pnB pn payload out) (w' : HandshakeWire P k h' pnB' pn' payload' out')
    (e : out ++ x = out' ++ y) : h = h' ∧ pnB = pnB' ∧ out = out' ∧ x = y ∧ (pn = pn' → payload = payload') := by
  obtain ⟨hb, lb, a1, a2, a3, a5, a6⟩ := w
  obtain ⟨hb', lb', b1, b2, b3, b5, b6⟩ := w'
  exact long_unique hP p p' (t := .handshake) rfl (by decide) a1 b1 a2 b2 a3 b3 a5 b5 a6 b6 e

/-- C112 for 0-RTT packets. -/
theorem C112_zerortt_unique {P : Prims} (hP : PrimLaws P) (k : Keys) (h h' : LongPacketHeader) (pnB pnB' payload payload' out out' x y : Bytes) (pn pn' : Nat)
    (p : h.isProtected = false) (p' : h'.isProtected = false) (w : ZeroRttWire P k h pnB pn payload out) (w' : ZeroRttWire P k h' pnB' pn' payload' out')
    (e : out ++ x = out' ++ y) : h = h' ∧ pnB = pnB' ∧ out = out' ∧ x = y ∧ (pn = pn' → payload = payload') := by
  obtain ⟨hb, lb, a1, a2, a3, a5, a6⟩ := w
  obtain ⟨hb', lb', b1, b2, b3, b5, b6⟩ := w'
  exact long_unique hP p p' (t := .zeroRtt) rfl (by decide) a1 b1 a2 b2 a3 b3 a5 b5 a6 b6 e

/-- C112 for 1-RTT packets, which have no length and fill their datagram. -/
theorem C112_onertt_unique {P : Prims} (hP : PrimLaws P) (k : Keys) (h h' : ShortPacketHeader) (pnB pnB' payload payload' out : Bytes) (pn pn' : Nat)
    (p : h.isProtected = h'.isProtected) (w : OneRttWire P k h pnB pn payload out) (w' : OneRttWire P k h' pnB' pn' payload' out) :
    h = h' ∧ pnB = pnB' ∧ (pn = pn' → payload = payload') := by
  obtain ⟨hb, ⟨d, a1, a2, a3⟩, a4, a5, a6⟩ := w
  obtain ⟨hb', ⟨d', b1, b2, b3⟩, b4, b5, b6⟩ := w'
  simp only [List.cons_append, List.nil_append, List.cons.injEq, true_and] at a1 b1
  subst a1 b1
  obtain ⟨u1, u2, u3, u4⟩ := protected_unique hP (by omega) a5 b5 a6 b6
  subst u2
  have hc : cidVal h.destinationConnectionId = cidVal h'.destinationConnectionId := a3.symm.trans b3
  refine ⟨?_, u3, u4⟩
  cases h; cases h'
  simp only [ShortPacketHeader.mk.injEq] at *
  exact ⟨u1, cidVal_inj hc, p⟩

/-- C112: the kind is part of the bytes, whatever the keys; no packet of one kind begins with a packet of another. -/
theorem C112_kinds {P P' : Prims} (k k' : Keys) (h h' : LongPacketHeader) (hb hb' r r' pnB pnB' payload payload' out out' x y : Bytes) (pn pn' : Nat) (t t' : PacketType)
    (ht : protectable t = true) (ht' : protectable t' = true) (n : t ≠ .oneRtt)
    (a1 : LongFields h (h.headerByte :: hb)) (b1 : LongFields h' (h'.headerByte :: hb'))
    (a2 : packetKind h.headerByte h.version = t) (b2 : packetKind h'.headerByte h'.version = t')
    (a6 : Protected P k 0x0f h.headerByte (hb ++ r) pnB pn payload out) (b6 : Protected P' k' 0x0f h'.headerByte (hb' ++ r') pnB' pn' payload' out')
    (e : out ++ x = out' ++ y) : t = t' := by
  obtain ⟨m, rest, o1⟩ := protected_first a6
  obtain ⟨m', rest', o2⟩ := protected_first b6
  rw [o1, o2] at e
  simp only [List.append_assoc, List.cons_append, List.cons.injEq] at e
  obtain ⟨e1, e2⟩ := e
  obtain ⟨q1, q2, q3⟩ := longFields_prefix ht ht' a2 b2 n rfl e1 a1 b1 e2
  have hv : h.version = h'.version := by simpa using congrArg LongPacketHeader.version q3
  rw [← a2, ← b2, ← kind_xor h.headerByte m, ← kind_xor h'.headerByte m', e1, hv]

/-- As `SentIn`, with the place in the history at which the packet was built. -/
def SentAt (bp : Profile) (c0 : Connection) (ops : List ConnOp) (i : Nat) (p : PacketInitial) (payload out : Bytes) : Prop :=
  ∃ pre fs token post a b, pre.length = i ∧ ops = pre ++ .buildInitial fs token :: post ∧ HasScid (c0.run bp pre).2 ∧
    (PacketInitial.new bp fs token (c0.run bp pre).2).1 = .ok p ∧ serializeFrames fs false = .ok payload ∧ payload.length < 2 ^ 30 ∧
    (token.getD []).length < 2 ^ 28 ∧ ops = a ++ b ∧ p.serialize (c0.run bp a).2 = .ok out

theorem sentIn_iff_at {bp : Profile} {c0 : Connection} {ops : List ConnOp} {p : PacketInitial} {payload out : Bytes} :
    SentIn bp c0 ops p payload out ↔ ∃ i, SentAt bp c0 ops i p payload out :=
  ⟨fun ⟨pre, fs, token, post, a, b, h⟩ => ⟨_, pre, fs, token, post, a, b, rfl, h⟩, fun ⟨_, pre, fs, token, post, a, b, _, h⟩ => ⟨pre, fs, token, post, a, b, h⟩⟩

section
variable {P : Prims} (hP : PrimLaws P) {bp : Profile} {server : Bool} {v : Version} {d : U160} {n : Nat} {c0 : Connection}
  (hn : n ≤ 20) (hd : cidVal d < 256 ^ n) (h0 : Connection.new P server v d n = .ok c0)
include hP hn hd h0

/-- One key for all Initial packets a connection sends; each carries its number in four bytes and its frames in its payload. -/
theorem sent_wire : ∃ k, ∀ bp ops p payload out, SentIn bp c0 ops p payload out →
    InitialWire P k p.header p.token p.packetNumberBytes p.packetNumber.toNat payload out ∧ beNat p.packetNumberBytes = p.packetNumber.toNat ∧
    p.header.isProtected = false ∧ serializeFrames p.packetPayload false = .ok payload := by
  obtain ⟨⟨k, -, l1, -, m1, -⟩, -⟩ := reachable_keys hP (bp := .debug) (c := (c0.run .debug []).2) ⟨server, v, d, n, c0, [], h0, rfl⟩
  refine ⟨k, fun bp ops p payload out hs => ?_⟩
  obtain ⟨pre, fs, token, post, a, b, -, s1, s2, s3, s4, s5, -, s6⟩ := hs
  have hr : Connection.Reachable P bp (c0.run bp pre).2 := ⟨server, v, d, n, c0, _, h0, rfl⟩
  have hdc : (c0.run bp pre).2.dcid = (d, n) := by
    rw [(run_ids bp _ c0).2]
    obtain ⟨_, _, _, _, _, _, rfl⟩ := new_ok' h0
    rfl
  have hc : IdsOk (c0.run bp pre).2 := by
    obtain ⟨sc', sl', f1, f2, f3⟩ := s1
    refine ⟨?_, ?_, ?_, ?_⟩
    · rw [hdc]; exact hn
    · rw [hdc]; exact hd
    · intro x hx; rw [f1] at hx; cases hx; exact f2
    · intro x hx; rw [f1] at hx; cases hx; exact f3
  obtain ⟨out', o1, o2, -, o4, o5, -, o7⟩ := built_initial hP (c' := (c0.run bp a).2) (((run_secrets bp a c0 .initial).1).trans m1) l1 hc (reachable_acks hr .initial).1 s2 s3 s4 s5
  rw [s6] at o1
  cases o1
  exact ⟨o2, o4, o5, by rw [o7]; exact s3⟩

/-- C112: packets of one connection, from the same or from different histories, of which one begins the other (or which begin the same datagram) are the same packet; with frames
whose length fields are right, down to the frames. -/
theorem C112_sent (bp bp' : Profile) (ops ops' : List ConnOp) (p p' : PacketInitial) (payload payload' out out' x y : Bytes)
    (s : SentIn bp c0 ops p payload out) (s' : SentIn bp' c0 ops' p' payload' out') (e : out ++ x = out' ++ y) :
    p.header = p'.header ∧ p.token = p'.token ∧ p.packetNumber = p'.packetNumber ∧ p.packetNumberBytes = p'.packetNumberBytes ∧ payload = payload' ∧ out = out' ∧ x = y ∧
    ((∀ f ∈ p.packetPayload, Consistent f) → (∀ f ∈ p'.packetPayload, Consistent f) → p = p') := by
  obtain ⟨k, hk⟩ := sent_wire hP hn hd h0
  obtain ⟨a1, a2, a3, a4⟩ := hk _ _ _ _ _ s
  obtain ⟨b1, b2, b3, b4⟩ := hk _ _ _ _ _ s'
  obtain ⟨u1, u2, u3, u4, u5, u6⟩ := C112_initial_unique hP k _ _ _ _ _ _ _ _ _ _ x y _ _ a3 b3 a1 b1 e
  have hpn : p.packetNumber = p'.packetNumber := BitVec.eq_of_toNat_eq (by rw [← a2, ← b2, u3])
  have hpl := u6 (congrArg BitVec.toNat hpn)
  subst hpl
  refine ⟨u1, u2, hpn, u3, rfl, u4, u5, fun c c' => ?_⟩
  have hfs := C20_serialize_injective _ _ false false payload c c' a4 b4
  cases p; cases p'
  simp only [PacketInitial.mk.injEq] at u1 u2 u3 hpn hfs ⊢
  exact ⟨u1, u2, hpn, u3, hfs⟩

/-- C112: a datagram of packets sent by one connection has one reading as a list of packets. -/
theorem C112_datagram (bp : Profile) (ops : List ConnOp) (l l' : List (PacketInitial × Bytes × Bytes))
    (hl : ∀ x ∈ l, SentIn bp c0 ops x.1 x.2.1 x.2.2 ∧ ∀ f ∈ x.1.packetPayload, Consistent f) (hl' : ∀ x ∈ l', SentIn bp c0 ops x.1 x.2.1 x.2.2 ∧ ∀ f ∈ x.1.packetPayload, Consistent f)
    (e : (l.map (·.2.2)).flatten = (l'.map (·.2.2)).flatten) : l = l' := by
  obtain ⟨k, hk⟩ := sent_wire hP hn hd h0
  have pos : ∀ x : PacketInitial × Bytes × Bytes, SentIn bp c0 ops x.1 x.2.1 x.2.2 → x.2.2 ≠ [] := by
    intro x hx
    obtain ⟨⟨_, _, _, _, _, _, _, _, w⟩, -⟩ := hk _ _ _ _ _ hx
    obtain ⟨m, rest, hw⟩ := protected_first w
    rw [hw]; simp
  induction l generalizing l' with
  | nil =>
    cases l' with
    | nil => rfl
    | cons x l' =>
      have h := pos x (hl' x (by simp)).1
      simp only [List.map_nil, List.flatten_nil, List.map_cons, List.flatten_cons] at e
      exact absurd (List.append_eq_nil_iff.1 e.symm).1 h
  | cons x l ih =>
    cases l' with
    | nil =>
      have h := pos x (hl x (by simp)).1
      simp only [List.map_nil, List.flatten_nil, List.map_cons, List.flatten_cons] at e
      exact absurd (List.append_eq_nil_iff.1 e).1 h
    | cons x' l' =>
      obtain ⟨a1, a2⟩ := hl x (by simp)
      obtain ⟨b1, b2⟩ := hl' x' (by simp)
      simp only [List.map_cons, List.flatten_cons] at e
      obtain ⟨-, -, -, -, u5, u6, u7, u8⟩ := C112_sent hP hn hd h0 bp bp ops ops _ _ _ _ _ _ _ _ a1 b1 e
      rw [ih l' (fun y hy => hl y (List.mem_cons_of_mem _ hy)) (fun y hy => hl' y (List.mem_cons_of_mem _ hy)) u7]
      congr 1
      exact Prod.ext (u8 a2 b2) (Prod.ext u5 u6)

/-- C112: two packets built at different places of one history (shorter than 2^64) never have the same bytes, nor does one begin the other. -/
theorem C112_no_repeat (bp : Profile) (ops : List ConnOp) (hlen : ops.length < 2 ^ 64) (i j : Nat) (p p' : PacketInitial) (payload payload' out out' x y : Bytes)
    (s : SentAt bp c0 ops i p payload out) (s' : SentAt bp c0 ops j p' payload' out') (e : out ++ x = out' ++ y) : i = j := by
  have key : ∀ i j p p' payload payload' out out', SentAt bp c0 ops i p payload out → SentAt bp c0 ops j p' payload' out' → i < j → p.packetNumber ≠ p'.packetNumber := by
    intro i j p p' payload payload' out out' s s' hij
    obtain ⟨pre, fs, token, post, _, _, rfl, e1, -, e2, -⟩ := s
    obtain ⟨pre', fs', token', post', _, _, rfl, e1', -, e2', -⟩ := s'
    obtain ⟨mid, hm⟩ : ∃ mid, pre' = pre ++ .buildInitial fs token :: mid := by
      rw [e1] at e1'
      obtain ⟨z, hz, hz'⟩ | ⟨z, hz, hz'⟩ := List.append_eq_append_iff.1 e1'
      · cases z with
        | nil => rw [hz] at hij; simp at hij
        | cons o z => rw [List.cons_append, List.cons.injEq] at hz'; exact ⟨z, by rw [hz, hz'.1]⟩
      · have := congrArg List.length hz; simp at this; omega
    have hz : (c0.pnInfo .initial).nextPn = 0 := by obtain ⟨_, _, _, _, _, _, rfl⟩ := new_ok' h0; rfl
    have hpw := (run_counter bp .initial ops c0 (by rw [hz]; simpa using hlen)).2
    have hsub := List.Pairwise.sublist (initials_issued (c0.run bp ops).1) hpw
    have o1 : ((c0.run bp pre).2.step bp (.buildInitial fs token)).1 = .initial (.ok p) := by rw [← e2]; rfl
    have o2 : ((c0.run bp pre').2.step bp (.buildInitial fs' token')).1 = .initial (.ok p') := by rw [← e2']; rfl
    have r1 : (c0.run bp ops).1 = (c0.run bp pre').1 ++ .initial (.ok p') :: (((c0.run bp pre').2.step bp (.buildInitial fs' token')).2.run bp post').1 := by
      rw [e1', run_append_outs, ← o2]; rfl
    have r2 : (c0.run bp pre').1 = (c0.run bp pre).1 ++ .initial (.ok p) :: (((c0.run bp pre).2.step bp (.buildInitial fs token)).2.run bp mid).1 := by
      rw [hm, run_append_outs, ← o1]; rfl
    rw [r1, r2] at hsub
    simp only [initialsIn_append, List.append_assoc, List.cons_append, initialsIn, List.map_append, List.map_cons] at hsub
    have h2 := (List.pairwise_cons.1 (List.pairwise_append.1 hsub).2.1).1 p'.packetNumber (by simp)
    intro h
    rw [h] at h2
    exact Nat.lt_irrefl _ h2
  have hpn := (C112_sent hP hn hd h0 bp bp ops ops _ _ _ _ _ _ _ _ (sentIn_iff_at.2 ⟨i, s⟩) (sentIn_iff_at.2 ⟨j, s'⟩) e).2.2.1
  rcases Nat.lt_trichotomy i j with h | h | h
  · exact absurd hpn (key _ _ _ _ _ _ _ _ s s' h)
  · exact h
  · exact absurd hpn.symm (key _ _ _ _ _ _ _ _ s' s h)

end

/-- A history that builds the same frames twice. -/
def exTwice : List ConnOp := [.setScid ⟨0, 0x1122⟩ 2, .buildInitial [.ping] (some [7]), .nextPn .initial, .buildInitial [.ping] (some [7])]

theorem exTwice_at (pre post : List ConnOp) (e : exTwice = pre ++ .buildInitial [.ping] (some [7]) :: post) (hsc : HasScid (exClient.run .debug pre).2)
    (h : ((PacketInitial.new .debug [.ping] (some [7]) (exClient.run .debug pre).2).1.bind fun p => p.serialize (exClient.run .debug exTwice).2).isOk = true) :
    ∃ p out, SentAt .debug exClient exTwice pre.length p [1] out ∧ (PacketInitial.new .debug [.ping] (some [7]) (exClient.run .debug pre).2).1 = .ok p ∧
      p.serialize (exClient.run .debug exTwice).2 = .ok out := by
  cases hp : (PacketInitial.new .debug [.ping] (some [7]) (exClient.run .debug pre).2).1 with
  | ok p =>
    rw [hp] at h
    cases ho : p.serialize (exClient.run .debug exTwice).2 with
    | ok out => exact ⟨p, out, ⟨pre, _, _, post, exTwice, [], rfl, e, hsc, hp, rfl, by decide, by decide, (List.append_nil _).symm, ho⟩, rfl, ho⟩
    | err x => rw [show (Out.bind (Out.ok p) fun p => p.serialize (exClient.run .debug exTwice).2) = p.serialize (exClient.run .debug exTwice).2 from rfl, ho] at h; cases h
    | panic x => rw [show (Out.bind (Out.ok p) fun p => p.serialize (exClient.run .debug exTwice).2) = p.serialize (exClient.run .debug exTwice).2 from rfl, ho] at h; cases h
  | err x => rw [hp] at h; cases h
  | panic x => rw [hp] at h; cases h

/-- Non-trivial instance: both packets are sent, with the same frames and token, and by `C112_no_repeat` their bytes differ. -/
example : ∃ p p' out out', SentAt .debug exClient exTwice 1 p [1] out ∧ SentAt .debug exClient exTwice 3 p' [1] out' ∧ p.packetPayload = p'.packetPayload ∧ p.token = p'.token ∧
    out ≠ out' := by
  obtain ⟨p, out, h1, b1, -⟩ := exTwice_at [.setScid ⟨0, 0x1122⟩ 2] _ rfl ⟨_, _, rfl, by decide, by decide +kernel⟩ (by decide +kernel)
  obtain ⟨p', out', h2, b2, -⟩ := exTwice_at [.setScid ⟨0, 0x1122⟩ 2, .buildInitial [.ping] (some [7]), .nextPn .initial] _ rfl ⟨_, _, rfl, by decide, by decide +kernel⟩ (by decide +kernel)
  obtain ⟨_, _, -, -, -, -, -, t1, f1, -⟩ := initialNew_facts b1
  obtain ⟨_, _, -, -, -, -, -, t2, f2, -⟩ := initialNew_facts b2
  refine ⟨p, p', out, out', h1, h2, f1.trans f2.symm, t1.trans t2.symm, fun e => ?_⟩
  have := C112_no_repeat Spec.toy_laws (by decide) (by decide +kernel) exClient_new .debug exTwice (by decide) _ _ p p' _ _ out out' [] [] h1 h2 (by rw [e])
  exact absurd this (by decide)

end QuicSea
