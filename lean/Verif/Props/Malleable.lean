import Verif.Props.Decode
/-
C89: every byte of an accepted packet is authenticated.
-/
namespace Spec
open QuicSea

theorem Opened.from {P : Prims} {k : Keys} {mb first : U8} {mid pnB skip : Bytes} {pn : Nat} {pl out : Bytes}
    (h : Opened P k mb first mid pnB skip pn pl out) : ∃ nb ct tag, beNat nb = pn ∧ OpenedFrom P k mb first mid pnB nb ct tag pl out := by
  obtain ⟨nb, ct, tag, m0, m1, m2, m3, m4, r, pnM, a1, a2, a3, a4, a5, a6, a7, a8, a9⟩ := h
  exact ⟨nb, ct, tag, a2, m0, m1, m2, m3, m4, r, pnM, skip, a1, a3, a4, a5, a6, a7, a8, a9⟩

end Spec

namespace QuicSea
open Spec

/-- C89, full statement: two Initial packets that are both accepted, and whose opening had the same inputs (number, associated data, ciphertext
and tag), are the same bytes. So no byte of a packet can be changed without a change of what the AEAD authenticates. -/
def C89For (P : Prims) : Prop := ∀ (bp bp' : Profile) (c : Connection), Connection.Reachable P bp c → ∀ (k : Keys),
  c.remoteSecrets .initial = .ok (secretsOf P k) → ∀ (out out' : Bytes) (p p' : PacketInitial),
    decodeNextPacket bp' c (makeResultStream out) = (.ok (.initial p), []) → decodeNextPacket bp' c (makeResultStream out') = (.ok (.initial p'), []) →
    ∀ (first : U8) (mid pnB nb ct tag plain : Bytes), OpenedFrom P k 0x0f first mid pnB nb ct tag plain out →
      OpenedFrom P k 0x0f first mid pnB nb ct tag plain out' → out' = out
/-- The claim, for all algorithms that obey the laws. -/
def C89Statement : Prop := ∀ P, PrimLaws P → C89For P

/-- What a tail gives does not depend on the bytes after a packet number of less than four bytes. -/
theorem tail_skip {P : Prims} {bp : Profile} {c : Connection} {sp : PnSpace} {lenOf : Mask → Out Nat} {hdr : Mask → Out Bytes}
    {payload : Nat → Rd Bytes} {mid : Bytes} {k : Keys} (hk : c.remoteSecrets sp = .ok (secretsOf P k))
    {s s' : Stream} {m : Mask} {pnB : Bytes} {pn : U64} {fs : List Frame}
    (h : tail bp c sp false lenOf hdr payload mid s = (.ok (m, pnB, pn, fs), s')) :
    ∃ pre skip s1, s = makeResultStream (pre ++ skip) ++ s1 ∧ pre.length = pnB.length ∧ (pre ++ skip).length = 4 ∧
      ∀ skip', skip'.length = skip.length →
        tail bp c sp false lenOf hdr payload mid (makeResultStream (pre ++ skip') ++ s1) = (.ok (m, pnB, pn, fs), s') := by
  obtain ⟨pnP, s1, smp, s2, n, ct, tag, hb, pl, e1, e2, e3, e4, e5, e6, e7, e8, e9, e10, e11, e12, e13, e14⟩ := tail_inv hk h
  have hl : pnB.length = n := by rw [e8, List.length_take, List.length_zipWith, e2]; show min n (min 4 4) = n; omega
  refine ⟨pnP.take n, pnP.drop n, s1, by rw [List.take_append_drop]; exact e1, by rw [List.length_take]; omega,
    by rw [List.take_append_drop]; exact e2, ?_⟩
  intro skip' hs
  have hpn : ((pnP.take n ++ skip').zipWith (· ^^^ ·) (maskList m)).take n = pnB := by
    rw [e8, List.take_zipWith, List.take_zipWith, List.take_left' (by rw [List.length_take]; omega)]
  rw [tail_eval hk (n := n) (m := m) (pn := pn) (smp := smp) (s1 := s2)
    (by rw [List.length_drop] at hs; rw [List.length_append, List.length_take]; omega) e3 e4 e5 e6 e7 (by rw [hpn]; exact e9)]
  rw [hpn, Rd.bind_ok e10]
  exact tailEnd_run hk e12 e11 e13 e14 s'

/-- C89 fails for every accepted Initial packet with a packet number of less than four bytes: the bytes after the number can be changed to any
others, and the packet is still accepted, with the same contents. -/
theorem C89_malleable (P : Prims) (hP : PrimLaws P) (bp bp' : Profile) (c : Connection) (hr : Connection.Reachable P bp c)
    (s s' : Stream) (p : PacketInitial) (h : decodeNextPacket bp' c s = (.ok (.initial p), s')) :
    ∃ pre skip t, s = makeResultStream (pre ++ skip) ++ t ∧ p.packetNumberBytes.length + skip.length = 4 ∧
      ∀ skip', skip'.length = skip.length → decodeNextPacket bp' c (makeResultStream (pre ++ skip') ++ t) = (.ok (.initial p), s') := by
  obtain ⟨k, hk⟩ : ∃ k, c.remoteSecrets .initial = .ok (secretsOf P k) := by
    obtain ⟨⟨kl, kr, _, _, _, m2⟩, _⟩ := reachable_keys hP hr
    exact ⟨kr, m2⟩
  obtain ⟨x, s1, hx, hkind, hm⟩ := decodeNext_initial h
  obtain ⟨hb, e0, hf, h128, hp, r1, r2⟩ := long_prefix hx
  rw [initial_eq] at hm
  rw [Rd.bind_ok r1, Rd.bind_ok r2] at hm
  obtain ⟨⟨l1, tl⟩, s2, g1, hm1⟩ := Rd.bind_eq_ok hm
  obtain ⟨token, s3, g2, hm2⟩ := Rd.bind_eq_ok hm1
  obtain ⟨⟨l, lb⟩, s4, g3, hm3⟩ := Rd.bind_eq_ok hm2
  obtain ⟨⟨m, pnB, pn, fs⟩, s5, g4, hm4⟩ := Rd.bind_eq_ok hm3
  obtain ⟨b1, a1, a2, a3⟩ := varIntWithBytes_sound _ _ _ g1
  obtain ⟨b2, c1, c2, c3⟩ := varBytes_sound _ _ _ _ g2
  obtain ⟨b3, d1, d2, d3⟩ := varIntWithBytes_sound _ _ _ g3
  dsimp only at a2 a3 d2 d3 g4 c3
  obtain ⟨pre, skip, t, q1, q2, q3, q4⟩ := tail_skip hk g4
  cases hm4
  subst c2
  subst tl lb
  refine ⟨x.headerByte :: (hb ++ b1 ++ b2 ++ b3 ++ pre), skip, t, ?_, ?_, ?_⟩
  · rw [e0, a1, c1, d1, q1]; simp
  · dsimp only; rw [← q2, ← List.length_append]; exact q3
  · intro skip' hs
    have e : makeResultStream (x.headerByte :: (hb ++ b1 ++ b2 ++ b3 ++ pre) ++ skip') ++ t =
        makeResultStream (x.headerByte :: hb) ++ (makeResultStream b1 ++ (makeResultStream b2 ++ (makeResultStream b3 ++
          (makeResultStream (pre ++ skip') ++ t)))) := by simp
    rw [e, decodeNext_long (nextHeader_long_iff.mpr ⟨_, rfl, hf, h128, hp⟩), hkind]
    show (do let res ← PacketInitial.fromStream bp' c; pure (Packet.initial res) : Rd Packet) _ = _
    rw [Rd.bind_ok (a := _) (s' := s') ?_]
    · rfl
    rw [initial_eq]
    rw [Rd.bind_ok (show u8FromDatagram _ = (.ok x.headerByte, makeResultStream hb ++ _) from rfl)]
    rw [Rd.bind_ok (long_reads hf h128 hp _), Rd.bind_ok (varIntWithBytes_reads a3 _), Rd.bind_ok (varBytes_reads' c3 _),
      Rd.bind_ok (varIntWithBytes_reads d3 _)]
    rw [Rd.bind_ok (q4 skip' hs)]
    rfl

/-- The packet of `exOut 2` (a two-byte packet number) with the bytes `a`, `b` between the packet number and the ciphertext. -/
def exMalMask : Bytes := (Spec.toy.aesEcb exKeys.hp (((exCt 2).1 ++ (exCt 2).2).take 16)).getD []
def exMal (a b : U8) : Bytes :=
  [(exHeader 2).headerByte ^^^ (exMalMask[0]! &&& 0x0f)] ++ exMid 2 ++
    (exPn 2).zipWith (· ^^^ ·) [exMalMask[1]!, exMalMask[2]!, exMalMask[3]!, exMalMask[4]!] ++ [a, b] ++ (exCt 2).1 ++ (exCt 2).2
def exMalPacket : PacketInitial := ⟨exHeader 2, [], 1, [0, 1], .ping :: List.replicate 20 .padding⟩
theorem exMal_decoded (bp : Profile) : decodeNextPacket bp exConn (makeResultStream (exMal 0 0)) = (.ok (.initial exMalPacket), []) := by
  cases bp <;> decide +kernel
theorem exMal_from (a b : U8) : OpenedFrom Spec.toy exKeys 0x0f (exHeader 2).headerByte (exMid 2) (exPn 2) [0, 0, 0, 0, 0, 0, 0, 1] (exCt 2).1 (exCt 2).2
    exPayload (exMal a b) := by
  refine ⟨exMalMask[0]!, exMalMask[1]!, exMalMask[2]!, exMalMask[3]!, exMalMask[4]!, exMalMask.drop 5,
    (exPn 2).zipWith (· ^^^ ·) [exMalMask[1]!, exMalMask[2]!, exMalMask[3]!, exMalMask[4]!], [a, b], rfl, ?_, ?_, rfl, ?_, ?_, ?_, rfl⟩ <;>
  decide +kernel
/-- The hypothesis of `C89_malleable` holds of it, and its conclusion, computed for some values of the two bytes. -/
example : [(0, 0), (1, 2), (0xab, 0xcd), (0xff, 0xff)].all (fun x => decide (decodeNextPacket .release exConn (makeResultStream (exMal x.1 x.2)) =
    (.ok (.initial exMalPacket), []))) = true := by decide +kernel

theorem C89_false : ¬ C89Statement := by
  intro h
  have := h Spec.toy Spec.toy_laws .debug .debug exConn exConn_reachable exKeys exKeys_ok (exMal 0 0) (exMal 1 2) exMalPacket exMalPacket
    (exMal_decoded _) (by decide +kernel) _ _ _ _ _ _ _ (exMal_from 0 0) (exMal_from 1 2)
  revert this
  decide +kernel

/-- C89 for packet numbers of four bytes: an accepted Initial packet was opened with a number, associated data, ciphertext and tag from which
the bytes of the packet follow; any other bytes have other inputs.
Missing for the full statement: shorter numbers, for which it is false (`C89_malleable`). -/
theorem C89_bound_partial (P : Prims) (hP : PrimLaws P) (bp bp' : Profile) (c : Connection) (hr : Connection.Reachable P bp c) (k : Keys)
    (hk : c.remoteSecrets .initial = .ok (secretsOf P k)) (out : Bytes) (t : Stream) (p : PacketInitial)
    (h : decodeNextPacket bp' c (makeResultStream out ++ t) = (.ok (.initial p), t)) (h4 : p.packetNumberBytes.length = 4) :
    ∃ hb tl lb nb ct tag plain, LongFields p.header (p.header.headerByte :: hb) ∧ IsVarInt tl p.token.length ∧ beNat nb = p.packetNumber.toNat ∧
      (deserializeFrames (makeResultStream plain)).1 = .ok p.packetPayload ∧
      OpenedFrom P k 0x0f p.header.headerByte (hb ++ tl ++ p.token ++ lb) p.packetNumberBytes nb ct tag plain out ∧
      ∀ out', OpenedFrom P k 0x0f p.header.headerByte (hb ++ tl ++ p.token ++ lb) p.packetNumberBytes nb ct tag plain out' → out' = out := by
  obtain ⟨out1, hb, tl, lb, pl, skip, L, g1, g2, _, _, g5, _, g7, _, _, _, g11⟩ := initial_opened hk (reachable_iv hP hr hk).2.1 h
  obtain rfl : out = out1 := makeResultStream_inj (List.append_cancel_right g1)
  obtain ⟨nb, ct, tag, e, g⟩ := Opened.from g7
  refine ⟨hb, tl, lb, nb, ct, tag, pl, g2, g5, e, g11, g, ?_⟩
  intro out' g'
  obtain ⟨m0, m1, m2, m3, m4, r, pnM, sk, _, _, _, i4, i5, i6, _, i8⟩ := g
  obtain ⟨m0', m1', m2', m3', m4', r', pnM', sk', _, _, _, i4', i5', i6', _, i8'⟩ := g'
  rw [i6] at i6'
  simp only [Option.some.injEq, List.cons.injEq] at i6'
  obtain ⟨rfl, rfl, rfl, rfl, rfl, -⟩ := i6'
  have n1 : pnM.length = 4 := by
    rw [i5, List.length_zipWith] at h4; simp only [List.length_append, List.length_cons, List.length_nil] at h4 i4; omega
  have n2 : pnM'.length = 4 := by
    rw [i5', List.length_zipWith] at h4; simp only [List.length_append, List.length_cons, List.length_nil] at h4 i4'; omega
  have s1 : sk = [] := by apply List.length_eq_zero_iff.mp; rw [List.length_append] at i4; omega
  have s2 : sk' = [] := by apply List.length_eq_zero_iff.mp; rw [List.length_append] at i4'; omega
  have w1 : pnM = p.packetNumberBytes.zipWith (· ^^^ ·) [m1, m2, m3, m4] := by rw [i5, zipWith_xor_twice _ _ (by simp [n1])]
  have w2 : pnM' = p.packetNumberBytes.zipWith (· ^^^ ·) [m1, m2, m3, m4] := by rw [i5', zipWith_xor_twice _ _ (by simp [n2])]
  rw [i8, i8', s1, s2, w1, w2]

/-- `exOut 4` is such a packet. -/
example : ∃ p, decodeNextPacket .debug exConn (makeResultStream (exOut 4) ++ []) = (.ok (.initial p), []) ∧ p.packetNumberBytes.length = 4 :=
  ⟨⟨exHeader 4, [], 1, [0, 0, 0, 1], .ping :: List.replicate 20 .padding⟩, by decide +kernel⟩

end QuicSea
