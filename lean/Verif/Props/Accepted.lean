import Verif.Props.Keyed
import Verif.Proofs.AppData
/-!
C33 for the kinds of packet that need other keys than the Initial ones: the packets that are accepted, exactly; C127: the same whatever has been acknowledged.
-/
namespace Spec
open QuicSea

/-- As `Opened`; `four` are the four bytes from the place of the packet number on, with header protection removed from all of them, `pnBytes` those of them
which are the packet number. -/
def OpenedFour (P : Prims) (k : Keys) (maskBits first : U8) (mid pnBytes four : Bytes) (pn : Nat) (plain out : Bytes) : Prop :=
  ∃ (nb ct tag : Bytes) (m0 m1 m2 m3 m4 : U8) (r masked : Bytes), nb.length = 8 ∧ beNat nb = pn ∧ tag.length = 16 ∧ masked.length = 4 ∧
    four = masked.zipWith (· ^^^ ·) [m1, m2, m3, m4] ∧ pnBytes = four.take (first.toNat % 4 + 1) ∧
    P.aesEcb k.hp ((ct ++ tag).take 16) = some (m0 :: m1 :: m2 :: m3 :: m4 :: r) ∧
    P.gcmOpen k.key (rfcNonce k.iv nb) ([first] ++ mid ++ pnBytes) ct tag = some plain ∧
    out = [first ^^^ (m0 &&& maskBits)] ++ mid ++ masked ++ ct ++ tag

/-- The number the code reads from packet number bytes `b`, when `a` is the largest number acknowledged: with nothing acknowledged the bytes themselves,
otherwise the bytes *added* to `a` rounded down to a multiple of 2, 4, 8 or 16 (or up, if they are not above its upper half). If the build checks overflow,
there must be none. -/
def NumberRead (bp : Profile) : Option Nat → Bytes → Nat → Prop
  | none, b, n => beNat b = n
  | some a, b, n =>
    let base := 2 ^ b.length * (a / 2 ^ b.length + if a / 2 ^ 32 < beNat b then 0 else 1)
    n = (base + beNat b) % 2 ^ 64 ∧ (bp = .debug → base % 2 ^ 64 + beNat b < 2 ^ 64 ∧ (b = [] → a + 1 < 2 ^ 64))

end Spec

namespace QuicSea
open Spec

theorem addU64_iff (bp : Profile) (x y n : U64) : addU64 bp x y = .ok n ↔ n.toNat = (x.toNat + y.toNat) % 2 ^ 64 ∧ (bp = .debug → x.toNat + y.toNat < 2 ^ 64) := by
  have key : n = x + y ↔ n.toNat = (x.toNat + y.toNat) % 2 ^ 64 := by
    rw [← BitVec.toNat_add]
    exact ⟨fun h => by rw [h], BitVec.eq_of_toNat_eq⟩
  rw [← key]
  cases bp with
  | release =>
    rw [addU64_release]
    exact ⟨fun h => ⟨(Out.ok.inj h).symm, nofun⟩, fun h => by rw [h.1]⟩
  | debug =>
    unfold addU64
    split
    · rename_i h
      exact ⟨fun e => ⟨(Out.ok.inj e).symm, fun _ => h⟩, fun e => by rw [e.1]⟩
    · rename_i h
      exact ⟨nofun, fun e => absurd (e.2 rfl) h⟩

/-- `reconstruct_remote_pn`, every connection. -/
theorem reconstruct_reads (bp : Profile) (c : Connection) (sp : PnSpace) {b : Bytes} (hl : b.length ≤ 4) (n : U64) :
    c.reconstructRemotePn bp sp b = .ok n ↔ NumberRead bp ((c.pnInfo sp).largestRemoteAck.map BitVec.toNat) b n.toNat := by
  have hpl : beNat b < 2 ^ 32 :=
    Nat.lt_of_lt_of_le (beNat_lt b) (Nat.le_trans (Nat.pow_le_pow_right (by decide) hl) (by decide))
  have e2 : ((fromBeBytes 32 (List.replicate (4 - b.length) 0 ++ b) : U32).setWidth 64).toNat = beNat b := by
    rw [BitVec.toNat_setWidth, tpPn_toNat b hl]; exact Nat.mod_eq_of_lt (by omega)
  unfold Connection.reconstructRemotePn
  dsimp only
  rw [if_neg (by omega)]
  cases (c.pnInfo sp).largestRemoteAck with
  | none =>
    show Out.ok _ = Out.ok n ↔ beNat b = n.toNat
    rw [← e2]
    exact ⟨fun h => by rw [Out.ok.inj h], fun h => by rw [BitVec.eq_of_toNat_eq h]⟩
  | some x =>
    have hx := x.isLt
    have hc : (fromBeBytes 32 (List.replicate (4 - b.length) 0 ++ b) : U32) > fromBeBytes 32 ((toBeBytes 8 x).take 4) ↔ x.toNat / 2 ^ 32 < beNat b := by
      show _ < _ ↔ _
      rw [BitVec.lt_def, tpPn_toNat b hl, fromBeBytes_toNat (by decide), top4, Nat.mod_eq_of_lt (by omega)]
    have hsh : ∀ t : U64, (t <<< b.length).toNat = 2 ^ b.length * t.toNat % 2 ^ 64 := by
      intro t
      rw [BitVec.toNat_shiftLeft, Nat.shiftLeft_eq, Nat.mul_comm]
    have hdiv : (x >>> b.length).toNat = x.toNat / 2 ^ b.length := by rw [BitVec.toNat_ushiftRight, Nat.shiftRight_eq_div_pow]
    have hdm := Nat.mul_div_le x.toNat (2 ^ b.length)
    have hdl := Nat.div_le_self x.toNat (2 ^ b.length)
    dsimp only [Option.map, NumberRead]
    by_cases hv : x.toNat / 2 ^ 32 < beNat b
    · rw [if_pos (hc.mpr hv), if_pos hv, addU64_iff, hsh, hdiv, e2, Nat.add_zero, Nat.mod_add_mod]
      refine and_congr_right fun _ => imp_congr_right fun _ => ⟨fun h => ⟨h, fun hb => ?_⟩, fun h => h.1⟩
      subst hb
      exact absurd hv (by simp [beNat])
    · rw [if_neg (fun h => hv (hc.mp h)), if_neg hv]
      have h1 : BitVec.toNat (1 : U64) = 1 := rfl
      have hdz : b ≠ [] → x.toNat / 2 ^ b.length + 1 < 2 ^ 64 := by
        intro hb
        have : 0 < b.length := List.length_pos_iff.mpr hb
        have h2 : 2 ^ 1 ≤ 2 ^ b.length := Nat.pow_le_pow_right (by decide) this
        have := Nat.div_le_div_left (a := x.toNat) h2 (by decide)
        omega
      have hnil : b = [] → x.toNat / 2 ^ b.length = x.toNat := by intro hb; subst hb; exact Nat.div_one _
      constructor
      · intro h
        obtain ⟨t, h2, h3⟩ := Out.bind_eq_ok h
        obtain ⟨a1, a2⟩ := (addU64_iff ..).mp h2
        obtain ⟨b1, b2⟩ := (addU64_iff ..).mp h3
        rw [hdiv, h1] at a1 a2
        rw [hsh, a1, e2] at b1 b2
        rw [Nat.mul_mod_mod] at b1 b2
        rw [Nat.mod_add_mod] at b1
        exact ⟨b1, fun hd => ⟨b2 hd, fun hb => by have := a2 hd; rw [hnil hb] at this; exact this⟩⟩
      · rintro ⟨g1, g2⟩
        have ht : addU64 bp (x >>> b.length) 1 = .ok (x >>> b.length + 1) := by
          rw [addU64_iff, hdiv, h1]
          refine ⟨by rw [BitVec.toNat_add, hdiv]; rfl, fun hd => ?_⟩
          by_cases hb : b = []
          · rw [hnil hb]; exact (g2 hd).2 hb
          · exact hdz hb
        rw [ht]
        show addU64 bp _ _ = _
        rw [addU64_iff, hsh, e2, BitVec.toNat_add, hdiv, h1, Nat.mul_mod_mod, Nat.mod_add_mod]
        exact ⟨g1, fun hd => (g2 hd).1⟩

theorem reconstruct_noErr (bp : Profile) (c : Connection) (sp : PnSpace) (b : Bytes) : (c.reconstructRemotePn bp sp b).isErr = false := by
  have hadd : ∀ x y : U64, (addU64 bp x y).isErr = false := by
    intro x y
    cases bp with
    | release => rw [addU64_release]; rfl
    | debug => unfold addU64; split <;> rfl
  unfold Connection.reconstructRemotePn
  dsimp only
  split
  · rfl
  · split
    · split
      · exact hadd _ _
      · rename_i x _ _
        have := hadd (x >>> b.length) 1
        cases h : addU64 bp (x >>> b.length) 1 with
        | ok t => exact hadd _ _
        | err e => rw [h] at this; cases this
        | panic w => rfl
    · rfl

/-- When it panics: beyond four bytes, or where overflow is checked and there is one. -/
theorem reconstruct_panics (bp : Profile) (c : Connection) (sp : PnSpace) (b : Bytes) :
    (c.reconstructRemotePn bp sp b).isPanic = true ↔ 4 < b.length ∨ ∀ n, n < 2 ^ 64 → ¬ NumberRead bp ((c.pnInfo sp).largestRemoteAck.map BitVec.toNat) b n := by
  by_cases hl : b.length ≤ 4
  · have he := reconstruct_noErr bp c sp b
    have hr := reconstruct_reads bp c sp hl
    constructor
    · intro h
      refine .inr fun n hn hread => ?_
      have := (hr (BitVec.ofNat 64 n)).mpr (by rw [BitVec.toNat_ofNat, Nat.mod_eq_of_lt hn]; exact hread)
      rw [this] at h
      cases h
    · rintro (h | h)
      · omega
      · cases hc : c.reconstructRemotePn bp sp b with
        | ok n => exact absurd ((hr n).mp hc) (h _ n.isLt)
        | err e => rw [hc] at he; cases he
        | panic w => rfl
  · exact ⟨fun _ => .inl (by omega), fun _ => reconstruct_long_panics bp c sp b (by omega)⟩

theorem tail_four {P : Prims} {bp : Profile} {c : Connection} {sp : PnSpace} {whole : Bool} {lenOf : Mask → Out Nat} {hdr : Mask → Out Bytes}
    {payload : Nat → Rd Bytes} {mid : Bytes} {k : Keys} (hk : c.remoteSecrets sp = .ok (secretsOf P k)) (hiv : k.iv.length = 12)
    (hpay : ∀ n, Sound (payload n) (fun a bs => bs = a)) {maskBits : U8} {first : Mask → U8} {hb : Bytes} (hhdr : ∀ m, hdr m = .ok (first m :: hb))
    (hlen : ∀ m, lenOf m = .ok ((first m).toNat % 4 + 1)) {w : U8} (hfirst : ∀ m : Mask, w = first m ^^^ (m.m0 &&& maskBits))
    {s s' : Stream} {m : Mask} {pnB : Bytes} {pn : U64} {fs : List Frame}
    (h : tail bp c sp whole lenOf hdr payload mid s = (.ok (m, pnB, pn, fs), s')) :
    ∃ bs four pl, s = makeResultStream bs ++ s' ∧ OpenedFour P k maskBits (first m) (hb ++ mid) pnB four pn.toNat pl (w :: (hb ++ mid ++ bs)) ∧
      NumberRead bp ((c.pnInfo sp).largestRemoteAck.map BitVec.toNat) (if whole then four else pnB) pn.toNat ∧ 4 ≤ bs.length ∧
      payload ((first m).toNat % 4 + 1) (makeResultStream (bs.drop 4) ++ s') = (.ok (bs.drop 4), s') ∧
      (deserializeFrames (makeResultStream pl)).1 = .ok fs := by
  obtain ⟨pnP, s1, smp, s2, n, ct, tag, hb', pl, e1, e2, e3, e4, e5, e6, e7, e8, e9, e10, e11, e12, e13, e14⟩ := tail_inv hk h
  rw [hhdr m] at e12
  cases e12
  rw [hlen m] at e6
  cases e6
  obtain ⟨bs, f1, f2⟩ := hpay _ _ _ _ e10
  subst f2
  have hsm : smp = (ct ++ tag).take 16 := take16 (f1.symm.trans e3) e4 (by rw [List.length_append]; omega)
  obtain ⟨r, hr⟩ := hpMask_ok.mp e5
  have hl4 : (pnP.zipWith (· ^^^ ·) (maskList m)).length = 4 := by simp [e2, maskList]
  have hd : (pnP ++ (ct ++ tag)).drop 4 = ct ++ tag := List.drop_left' e2
  refine ⟨pnP ++ (ct ++ tag), pnP.zipWith (· ^^^ ·) (maskList m), pl, by rw [e1, f1, makeResultStream_append pnP, List.append_assoc], ?_,
    (reconstruct_reads bp c sp ?_ pn).mp e9, by rw [List.length_append]; omega, by rw [hd, ← f1]; exact e10, e14⟩
  · refine ⟨toBeBytes 8 pn, ct, tag, m.m0, m.m1, m.m2, m.m3, m.m4, r, pnP, toBeBytes_length .., beNat_toBeBytes' 8 _, e11, e2, rfl, e8, by rw [← hsm]; exact hr, ?_, ?_⟩
    · rw [← packetNonce_eq k.iv _ (by omega)]
      simpa using e13
    · rw [hfirst m]; simp
  · split
    · omega
    · rw [e8, List.length_take]; omega

theorem tail_accepts {P : Prims} {bp : Profile} {c : Connection} {sp : PnSpace} {whole : Bool} {lenOf : Mask → Out Nat} {hdr : Mask → Out Bytes}
    {payload : Nat → Rd Bytes} {mid : Bytes} {k : Keys} (hk : c.remoteSecrets sp = .ok (secretsOf P k)) (hiv : k.iv.length = 12)
    {first : U8} {hb nb ct tag r masked four pnB pl : Bytes} {m : Mask} {pn : U64} {fs : List Frame}
    (hhdr : hdr m = .ok (first :: hb)) (hlen : lenOf m = .ok (first.toNat % 4 + 1)) (i1 : nb.length = 8) (i2 : beNat nb = pn.toNat) (i3 : tag.length = 16)
    (i4 : masked.length = 4) (i5 : four = masked.zipWith (· ^^^ ·) [m.m1, m.m2, m.m3, m.m4]) (i6 : pnB = four.take (first.toNat % 4 + 1))
    (i7 : P.aesEcb k.hp ((ct ++ tag).take 16) = some (m.m0 :: m.m1 :: m.m2 :: m.m3 :: m.m4 :: r))
    (i8 : P.gcmOpen k.key (rfcNonce k.iv nb) ([first] ++ (hb ++ mid) ++ pnB) ct tag = some pl)
    (hn : NumberRead bp ((c.pnInfo sp).largestRemoteAck.map BitVec.toNat) (if whole then four else pnB) pn.toNat) (hf : (deserializeFrames (makeResultStream pl)).1 = .ok fs) {s s' : Stream}
    (hpay : payload (first.toNat % 4 + 1) (makeResultStream (ct ++ tag) ++ s) = (.ok (ct ++ tag), s')) :
    tail bp c sp whole lenOf hdr payload mid (makeResultStream masked ++ (makeResultStream (ct ++ tag) ++ s)) = (.ok (m, pnB, pn, fs), s') := by
  have hl4 : four.length = 4 := by rw [i5]; simp [i4]
  have hml : masked.zipWith (· ^^^ ·) (maskList m) = four := i5.symm
  have hnb : nb = toBeBytes 8 pn := beNat_inj (by rw [i1, toBeBytes_length]) (by rw [i2, beNat_toBeBytes' 8 _])
  rw [hnb, ← packetNonce_eq k.iv _ (by omega)] at i8
  rw [tail_eval hk (m := m) (n := first.toNat % 4 + 1) (pn := pn) (smp := (ct ++ tag).take 16) (s1 := makeResultStream ((ct ++ tag).drop 16) ++ s) i4
    (by rw [← List.append_assoc, ← makeResultStream_append, List.take_append_drop]) (by rw [List.length_take, List.length_append]; omega)
    (hpMask_ok.mpr ⟨r, i7⟩) hlen (by omega) (by
      rw [hml, ← i6]
      refine (reconstruct_reads bp c sp ?_ pn).mpr hn
      split
      · omega
      · rw [i6, List.length_take]; omega)]
  rw [hml, ← i6, Rd.bind_ok hpay]
  exact tailEnd_run hk hhdr i3 (by simpa using i8) hf s'

/-- How many bytes are taken for the ciphertext. -/
theorem lenBytes_taken {bp : Profile} {L : U64} {n : Nat} {bs : Bytes} {s : Stream} (hn : n ≤ 4) (hs : bs.length + 4 < 2 ^ 64) :
    lenBytes bp L n (makeResultStream bs ++ s) = (.ok bs, s) ↔ L.toNat = n + bs.length := by
  constructor
  · intro h
    unfold lenBytes at h
    obtain ⟨kk, s6, e6, e7⟩ := Rd.bind_eq_ok h
    rw [Rd.lift_apply] at e6
    obtain ⟨e8, rfl⟩ := Prod.mk.inj e6
    obtain ⟨b4, _, e9, lb4⟩ := varBytes_sound _ _ _ _ e7
    unfold subUsize at e8
    by_cases hL : n ≤ L.toNat
    · rw [if_pos hL] at e8
      cases e8
      omega
    · rw [if_neg hL] at e8
      cases bp with
      | debug => cases e8
      | release => cases e8; omega
  · intro h
    exact lenBytes_reads (by omega) s

/-- **C127**: the Handshake packets that are accepted, exactly, whatever has been acknowledged. -/
theorem C127_handshake (P : Prims) (bp : Profile) (c : Connection) (k : Keys) (hkl : KeyLens k) (hk : c.remoteSecrets .handshake = .ok (secretsOf P k))
    (s s' : Stream) (p : PacketHandshake) (hs : s.length + 4 < 2 ^ 64) :
    decodeNextPacket bp c s = (.ok (.handshake p), s') ↔
    ∃ out hb lb plain four L, s = makeResultStream out ++ s' ∧ LongFields p.header (p.header.headerByte :: hb) ∧ p.header.isProtected = false ∧
      packetKind p.header.headerByte p.header.version = .handshake ∧ IsVarInt lb L ∧ 
      out.length + p.packetNumberBytes.length = 1 + (hb ++ lb).length + L + 4 ∧
      OpenedFour P k 0x0f p.header.headerByte (hb ++ lb) p.packetNumberBytes four p.packetNumber.toNat plain out ∧
      NumberRead bp ((c.pnInfo .handshake).largestRemoteAck.map BitVec.toNat) four p.packetNumber.toNat ∧ (deserializeFrames (makeResultStream plain)).1 = .ok p.packetPayload := by
  have hiv := hkl.2.1
  constructor
  · intro h
    obtain ⟨x, s1, hx, hkind, hm⟩ := decodeNext_handshake h
    obtain ⟨hb, e0, hf, h128, hp, r1, r2⟩ := long_prefix hx
    have hv : x.version.toNat ≠ 0 := kind_version (by rw [hkind]; decide) (by rw [hkind]; decide)
    rw [hkind] at hp
    rw [handshake_eq] at hm
    rw [Rd.bind_ok r1, Rd.bind_ok r2] at hm
    obtain ⟨⟨l, lb⟩, s4, g3, hm3⟩ := Rd.bind_eq_ok hm
    obtain ⟨⟨m, pnB, pn, fs⟩, s5, g4, hm4⟩ := Rd.bind_eq_ok hm3
    obtain ⟨b3, d1, d2, d3⟩ := varIntWithBytes_sound _ _ _ g3
    dsimp only at d2 d3 g4
    cases hm4
    subst lb
    have hrem := removeProtection_long (x := x) hp
    obtain ⟨bs, four, pl, o1, o2, o5, o7, o4, o6⟩ := tail_four (first := fun m => x.headerByte ^^^ (m.m0 &&& 0x0f)) (hb := hb) (w := x.headerByte)
      (maskBits := 0x0f) hk hiv (lenBytes_sound bp l)
      (by intro m; rw [hrem]; exact longFields_toBytes (h := { x with headerByte := x.headerByte ^^^ (m.m0 &&& 0x0f), isProtected := false }) hv (unprot_fields hf))
      (by intro m; rw [hrem]; exact pnLength_eq.mpr ⟨rfl, rfl⟩)
      (by intro m; rw [BitVec.xor_assoc, BitVec.xor_self, BitVec.xor_zero]) g4
    dsimp only at o2 o4 ⊢
    rw [hrem m]
    dsimp only
    have hbl : bs.length ≤ s.length := by rw [e0, d1, o1]; simp; omega
    have hlb := (lenBytes_taken (by omega) (by rw [List.length_drop]; omega)).mp o4
    have hpn : pnB.length = (x.headerByte ^^^ (m.m0 &&& 0x0f)).toNat % 4 + 1 := by
      obtain ⟨nb, ct, tag, m0, m1, m2, m3, m4, r, masked, i1, i2, i3, i4, i5, i6, -⟩ := o2
      rw [i6, List.length_take, i5, List.length_zipWith, i4]
      simp only [List.length_cons, List.length_nil]
      omega
    refine ⟨x.headerByte :: (hb ++ b3 ++ bs), hb, b3, pl, four, l.toNat, ?_, unprot_fields hf, rfl, ?_, d3, ?_, o2, o5, o6⟩
    · rw [e0, d1, o1]; simp
    · rw [kind_xor]; exact hkind
    · rw [List.length_drop] at hlb
      simp only [List.length_append, List.length_cons]
      omega
  · rintro ⟨out, hb, lb, pl, four, L, rfl, w1, hp, w2, w5, hlen, ⟨nb, ct, tag, m0, m1, m2, m3, m4, r, masked, i1, i2, i3, i4, i5, i6, i7, i8, rfl⟩, hn, hf⟩
    have hl := w5.lt
    have hv : p.header.version.toNat ≠ 0 := kind_version (by rw [w2]; decide) (by rw [w2]; decide)
    have hrem := protHeader_remove p.header ⟨m0, m1, m2, m3, m4⟩ hp
    have hpn : p.packetNumberBytes.length = p.header.headerByte.toNat % 4 + 1 := by
      rw [i6, List.length_take, i5, List.length_zipWith, i4]
      simp only [List.length_cons, List.length_nil]
      omega
    simp only [List.length_append, List.length_cons, List.length_nil] at hlen
    rw [show makeResultStream ([p.header.headerByte ^^^ (m0 &&& 0x0f)] ++ (hb ++ lb) ++ masked ++ ct ++ tag) ++ s' =
      makeResultStream ((p.header.headerByte ^^^ ((⟨m0, m1, m2, m3, m4⟩ : Mask).m0 &&& 0x0f)) :: (hb ++ lb)) ++
        (makeResultStream masked ++ (makeResultStream (ct ++ tag) ++ s')) by simp]
    rw [decodeNext_wire_handshake w1 w2 ⟨m0, m1, m2, m3, m4⟩]
    rw [Rd.bind_ok (a := p) (s' := s') ?_]
    · rfl
    rw [handshake_run w1 w2 w5]
    rw [Rd.bind_ok (a := (⟨m0, m1, m2, m3, m4⟩, p.packetNumberBytes, p.packetNumber, p.packetPayload)) (s' := s') ?_]
    · dsimp only
      rw [hrem]
      
      rfl
    exact tail_accepts (whole := true) hk hiv (by rw [hrem]; exact longFields_toBytes hv w1) (by rw [hrem]; exact pnLength_eq.mpr ⟨hp, rfl⟩) i1 i2 i3 i4 i5 i6 i7
      i8 hn hf ((lenBytes_taken (by omega) (by rw [List.length_append]; simp at hs; omega)).mpr (by
        rw [ofNat64_toNat (by omega), List.length_append]; omega))

/-- C33, the Handshake packets that are accepted, exactly, on any connection with Handshake keys. The number is that of *all* four bytes from its place on,
whatever its length. -/
theorem C33_handshake_exact (P : Prims) (bp : Profile) (c : Connection) (k : Keys) (hkl : KeyLens k) (hk : c.remoteSecrets .handshake = .ok (secretsOf P k))
    (ha : (c.pnInfo .handshake).largestRemoteAck = none) (s s' : Stream) (p : PacketHandshake) (hs : s.length + 4 < 2 ^ 64) :
    decodeNextPacket bp c s = (.ok (.handshake p), s') ↔
    ∃ out hb lb plain four L, s = makeResultStream out ++ s' ∧ LongFields p.header (p.header.headerByte :: hb) ∧ p.header.isProtected = false ∧
      packetKind p.header.headerByte p.header.version = .handshake ∧ IsVarInt lb L ∧ 
      out.length + p.packetNumberBytes.length = 1 + (hb ++ lb).length + L + 4 ∧
      OpenedFour P k 0x0f p.header.headerByte (hb ++ lb) p.packetNumberBytes four p.packetNumber.toNat plain out ∧
      beNat four = p.packetNumber.toNat ∧ (deserializeFrames (makeResultStream plain)).1 = .ok p.packetPayload := by
  have h := C127_handshake P bp c k hkl hk s s' p hs
  rw [ha] at h
  exact h

/-- **C127**: the 0-RTT packets that are accepted, exactly, whatever has been acknowledged. -/
theorem C127_zero_rtt (P : Prims) (bp : Profile) (c : Connection) (k : Keys) (hkl : KeyLens k) (hk : c.remoteSecrets .application = .ok (secretsOf P k))
    (s s' : Stream) (p : PacketZeroRtt) (hs : s.length + 4 < 2 ^ 64) :
    decodeNextPacket bp c s = (.ok (.zeroRtt p), s') ↔
    ∃ out hb lb plain four L, s = makeResultStream out ++ s' ∧ LongFields p.header (p.header.headerByte :: hb) ∧ p.header.isProtected = false ∧
      packetKind p.header.headerByte p.header.version = .zeroRtt ∧ IsVarInt lb L ∧ p.length.toNat = L ∧
      out.length + p.packetNumberBytes.length = 1 + (hb ++ lb).length + L + 4 ∧
      OpenedFour P k 0x0f p.header.headerByte (hb ++ lb) p.packetNumberBytes four p.packetNumber.toNat plain out ∧
      NumberRead bp ((c.pnInfo .application).largestRemoteAck.map BitVec.toNat) p.packetNumberBytes p.packetNumber.toNat ∧ (deserializeFrames (makeResultStream plain)).1 = .ok p.packetPayload := by
  have hiv := hkl.2.1
  constructor
  · intro h
    obtain ⟨x, s1, hx, hkind, hm⟩ := decodeNext_zeroRtt h
    obtain ⟨hb, e0, hf, h128, hp, r1, r2⟩ := long_prefix hx
    have hv : x.version.toNat ≠ 0 := kind_version (by rw [hkind]; decide) (by rw [hkind]; decide)
    rw [hkind] at hp
    rw [zeroRtt_eq] at hm
    rw [Rd.bind_ok r1, Rd.bind_ok r2] at hm
    obtain ⟨⟨l, lb⟩, s4, g3, hm3⟩ := Rd.bind_eq_ok hm
    obtain ⟨⟨m, pnB, pn, fs⟩, s5, g4, hm4⟩ := Rd.bind_eq_ok hm3
    obtain ⟨b3, d1, d2, d3⟩ := varIntWithBytes_sound _ _ _ g3
    dsimp only at d2 d3 g4
    cases hm4
    subst lb
    have hrem := removeProtection_long (x := x) hp
    obtain ⟨bs, four, pl, o1, o2, o5, o7, o4, o6⟩ := tail_four (first := fun m => x.headerByte ^^^ (m.m0 &&& 0x0f)) (hb := hb) (w := x.headerByte)
      (maskBits := 0x0f) hk hiv (lenBytes_sound bp l)
      (by intro m; rw [hrem]; exact longFields_toBytes (h := { x with headerByte := x.headerByte ^^^ (m.m0 &&& 0x0f), isProtected := false }) hv (unprot_fields hf))
      (by intro m; rw [hrem]; exact pnLength_eq.mpr ⟨rfl, rfl⟩)
      (by intro m; rw [BitVec.xor_assoc, BitVec.xor_self, BitVec.xor_zero]) g4
    dsimp only at o2 o4 ⊢
    rw [hrem m]
    dsimp only
    have hbl : bs.length ≤ s.length := by rw [e0, d1, o1]; simp; omega
    have hlb := (lenBytes_taken (by omega) (by rw [List.length_drop]; omega)).mp o4
    have hpn : pnB.length = (x.headerByte ^^^ (m.m0 &&& 0x0f)).toNat % 4 + 1 := by
      obtain ⟨nb, ct, tag, m0, m1, m2, m3, m4, r, masked, i1, i2, i3, i4, i5, i6, -⟩ := o2
      rw [i6, List.length_take, i5, List.length_zipWith, i4]
      simp only [List.length_cons, List.length_nil]
      omega
    refine ⟨x.headerByte :: (hb ++ b3 ++ bs), hb, b3, pl, four, l.toNat, ?_, unprot_fields hf, rfl, ?_, d3, rfl, ?_, o2, o5, o6⟩
    · rw [e0, d1, o1]; simp
    · rw [kind_xor]; exact hkind
    · rw [List.length_drop] at hlb
      simp only [List.length_append, List.length_cons]
      omega
  · rintro ⟨out, hb, lb, pl, four, L, rfl, w1, hp, w2, w5, hL, hlen, ⟨nb, ct, tag, m0, m1, m2, m3, m4, r, masked, i1, i2, i3, i4, i5, i6, i7, i8, rfl⟩, hn, hf⟩
    have hl := w5.lt
    have hv : p.header.version.toNat ≠ 0 := kind_version (by rw [w2]; decide) (by rw [w2]; decide)
    have hrem := protHeader_remove p.header ⟨m0, m1, m2, m3, m4⟩ hp
    have hpn : p.packetNumberBytes.length = p.header.headerByte.toNat % 4 + 1 := by
      rw [i6, List.length_take, i5, List.length_zipWith, i4]
      simp only [List.length_cons, List.length_nil]
      omega
    simp only [List.length_append, List.length_cons, List.length_nil] at hlen
    rw [show makeResultStream ([p.header.headerByte ^^^ (m0 &&& 0x0f)] ++ (hb ++ lb) ++ masked ++ ct ++ tag) ++ s' =
      makeResultStream ((p.header.headerByte ^^^ ((⟨m0, m1, m2, m3, m4⟩ : Mask).m0 &&& 0x0f)) :: (hb ++ lb)) ++
        (makeResultStream masked ++ (makeResultStream (ct ++ tag) ++ s')) by simp]
    rw [decodeNext_wire_zeroRtt w1 w2 ⟨m0, m1, m2, m3, m4⟩]
    rw [Rd.bind_ok (a := p) (s' := s') ?_]
    · rfl
    rw [zeroRtt_run w1 w2 w5]
    rw [Rd.bind_ok (a := (⟨m0, m1, m2, m3, m4⟩, p.packetNumberBytes, p.packetNumber, p.packetPayload)) (s' := s') ?_]
    · dsimp only
      rw [hrem]
      rw [← hL, BitVec.ofNat_toNat, BitVec.setWidth_eq]
      rfl
    exact tail_accepts (whole := false) hk hiv (by rw [hrem]; exact longFields_toBytes hv w1) (by rw [hrem]; exact pnLength_eq.mpr ⟨hp, rfl⟩) i1 i2 i3 i4 i5 i6 i7
      i8 hn hf ((lenBytes_taken (by omega) (by rw [List.length_append]; simp at hs; omega)).mpr (by
        rw [ofNat64_toNat (by omega), List.length_append]; omega))

/-- C33, the 0-RTT packets that are accepted, exactly. -/
theorem C33_zero_rtt_exact (P : Prims) (bp : Profile) (c : Connection) (k : Keys) (hkl : KeyLens k) (hk : c.remoteSecrets .application = .ok (secretsOf P k))
    (ha : (c.pnInfo .application).largestRemoteAck = none) (s s' : Stream) (p : PacketZeroRtt) (hs : s.length + 4 < 2 ^ 64) :
    decodeNextPacket bp c s = (.ok (.zeroRtt p), s') ↔
    ∃ out hb lb plain four L, s = makeResultStream out ++ s' ∧ LongFields p.header (p.header.headerByte :: hb) ∧ p.header.isProtected = false ∧
      packetKind p.header.headerByte p.header.version = .zeroRtt ∧ IsVarInt lb L ∧ p.length.toNat = L ∧
      out.length + p.packetNumberBytes.length = 1 + (hb ++ lb).length + L + 4 ∧
      OpenedFour P k 0x0f p.header.headerByte (hb ++ lb) p.packetNumberBytes four p.packetNumber.toNat plain out ∧
      beNat p.packetNumberBytes = p.packetNumber.toNat ∧ (deserializeFrames (makeResultStream plain)).1 = .ok p.packetPayload := by
  have h := C127_zero_rtt P bp c k hkl hk s s' p hs
  rw [ha] at h
  exact h

/-- **C127**: the 1-RTT packets that are accepted, exactly, whatever has been acknowledged. -/
theorem C127_one_rtt (P : Prims) (bp : Profile) (c : Connection) (k : Keys) (hkl : KeyLens k) (hk : c.remoteSecrets .application = .ok (secretsOf P k))
    (s s' : Stream) (p : PacketOneRtt) :
    decodeNextPacket bp c s = (.ok (.oneRtt p), s') ↔
    ∃ out hb plain four, s = makeResultStream out ∧ s' = [] ∧ ShortFields p.header (p.header.headerByte :: hb) ∧ p.header.isProtected = false ∧
      p.header.headerByte.toNat < 128 ∧
      OpenedFour P k 0x1f p.header.headerByte hb p.packetNumberBytes four p.packetNumber.toNat plain out ∧
      NumberRead bp ((c.pnInfo .application).largestRemoteAck.map BitVec.toNat) p.packetNumberBytes p.packetNumber.toNat ∧ (deserializeFrames (makeResultStream plain)).1 = .ok p.packetPayload := by
  have hiv := hkl.2.1
  constructor
  · intro h
    obtain ⟨x, s1, hx, hm⟩ := decodeNext_oneRtt h
    obtain ⟨bs0, e0, hf, h128, hp⟩ := nextHeader_short_iff.mp hx
    have hf' := hf
    obtain ⟨hb, rfl, l8, v8⟩ := hf'
    simp only [List.singleton_append] at e0 hf
    have r1 : u8FromDatagram s = (.ok x.headerByte, makeResultStream hb ++ s1) := by rw [e0]; rfl
    rw [oneRtt_eq] at hm
    rw [Rd.bind_ok r1, Rd.bind_ok (short_reads hf hp s1)] at hm
    obtain ⟨⟨m, pnB, pn, fs⟩, s5, g4, hm4⟩ := Rd.bind_eq_ok hm
    cases hm4
    have hrem : ∀ m, x.removeProtection m = { x with headerByte := x.headerByte ^^^ (m.m0 &&& 0x1f), isProtected := false } := by
      intro m
      unfold ShortPacketHeader.removeProtection
      rw [hp]; rfl
    obtain ⟨bs, four, pl, o1, o2, o5, o7, o4, o6⟩ := tail_four (first := fun m => x.headerByte ^^^ (m.m0 &&& 0x1f)) (hb := hb) (w := x.headerByte)
      (maskBits := 0x1f) hk hiv (fun _ => allBytes_sound)
      (by intro m; rw [hrem]; exact short_toBytes (h := { x with headerByte := x.headerByte ^^^ (m.m0 &&& 0x1f), isProtected := false }) ⟨hb, rfl, l8, v8⟩)
      (by intro m; rw [hrem]; exact short_pnLength rfl)
      (by intro m; rw [BitVec.xor_assoc, BitVec.xor_self, BitVec.xor_zero]) g4
    dsimp only at o2 o4 ⊢
    rw [hrem m]
    dsimp only
    have hs5 := (allBytes_ok o4).2
    subst hs5
    rw [List.append_nil] at o2
    refine ⟨x.headerByte :: (hb ++ bs), hb, pl, four, ?_, rfl, ⟨hb, rfl, l8, v8⟩, rfl, ?_, o2, o5, o6⟩
    · rw [e0, o1]; simp
    · have key : ∀ a b : U8, a.toNat < 128 → (a ^^^ (b &&& 0x1f)).toNat < 128 := by
        intro a b ha
        rw [BitVec.toNat_xor, BitVec.toNat_and]
        exact Nat.xor_lt_two_pow (n := 7) ha (Nat.lt_of_le_of_lt Nat.and_le_right (by decide))
      exact key _ _ h128
  · rintro ⟨out, hb, pl, four, rfl, rfl, w1, hp, w2, ⟨nb, ct, tag, m0, m1, m2, m3, m4, r, masked, i1, i2, i3, i4, i5, i6, i7, i8, rfl⟩, hn, hf⟩
    have hrem := protShort_remove p.header ⟨m0, m1, m2, m3, m4⟩ hp
    rw [show makeResultStream ([p.header.headerByte ^^^ (m0 &&& 0x1f)] ++ hb ++ masked ++ ct ++ tag) =
      makeResultStream ((p.header.headerByte ^^^ ((⟨m0, m1, m2, m3, m4⟩ : Mask).m0 &&& 0x1f)) :: hb) ++
        (makeResultStream masked ++ (makeResultStream (ct ++ tag) ++ [])) by simp]
    rw [oneRtt_run w1 w2]
    rw [Rd.bind_ok (a := (⟨m0, m1, m2, m3, m4⟩, p.packetNumberBytes, p.packetNumber, p.packetPayload)) (s' := []) ?_]
    · dsimp only
      rw [hrem]
      rfl
    exact tail_accepts (whole := false) hk hiv (by rw [hrem]; exact short_toBytes w1) (by rw [hrem]; exact short_pnLength hp) i1 i2 i3 i4 i5 i6 i7
      (by simpa using i8) hn hf (by rw [List.append_nil]; exact allBytes_run _)

/-- C33, the 1-RTT packets that are accepted, exactly: they reach to the end of the datagram. -/
theorem C33_one_rtt_exact (P : Prims) (bp : Profile) (c : Connection) (k : Keys) (hkl : KeyLens k) (hk : c.remoteSecrets .application = .ok (secretsOf P k))
    (ha : (c.pnInfo .application).largestRemoteAck = none) (s s' : Stream) (p : PacketOneRtt) :
    decodeNextPacket bp c s = (.ok (.oneRtt p), s') ↔
    ∃ out hb plain four, s = makeResultStream out ∧ s' = [] ∧ ShortFields p.header (p.header.headerByte :: hb) ∧ p.header.isProtected = false ∧
      p.header.headerByte.toNat < 128 ∧
      OpenedFour P k 0x1f p.header.headerByte hb p.packetNumberBytes four p.packetNumber.toNat plain out ∧
      beNat p.packetNumberBytes = p.packetNumber.toNat ∧ (deserializeFrames (makeResultStream plain)).1 = .ok p.packetPayload := by
  have h := C127_one_rtt P bp c k hkl hk s s' p
  rw [ha] at h
  exact h

end QuicSea
