import Verif.Spec.RealPrims
import Verif.Props.Packet
import Verif.Props.Decode
/-
C75: the algorithms themselves. The theorems over arbitrary `Prims` apply to SHA-256, HKDF, AES-128 and GCM. `Vectors.lean` computes with them.
-/
namespace QuicSea
open Spec

/-- C75. The algorithms satisfy all that is assumed of the libraries anywhere. -/
theorem C75_laws : PrimLaws real := real_laws

/-- RFC 8446 section 7.1, `HkdfLabel` without context, for lengths below 256. -/
def label (n : U8) (s : String) : Bytes := [0, n, BitVec.ofNat 8 (6 + s.length)] ++ ascii "tls13 " ++ ascii s ++ [0]

theorem label_unique {bs : Bytes} {n : Nat} {m : U8} {s : String} (h : IsHkdfLabel bs n (ascii s) []) (hm : m.toNat = n) : bs = label m s := by
  obtain ⟨nb, l, c, h1, h2, h3, h4, rfl⟩ := h
  have e1 : nb = [0, m] := beNat_inj h1 (by rw [h2]; simp [beNat, hm])
  have e2 : l = BitVec.ofNat 8 (6 + s.length) := by
    have hl : (ascii s).length = s.length := by rw [ascii, List.length_map]; rfl
    refine BitVec.eq_of_toNat_eq ?_
    rw [BitVec.toNat_ofNat, ← hl, ← h3]
    exact (Nat.mod_eq_of_lt l.isLt).symm
  have e3 : c = 0 := BitVec.eq_of_toNat_eq h4
  subst e1 e2 e3
  simp [label]

theorem expand_one {prk info : Bytes} {n : Nat} (h0 : 0 < n) (h : n ≤ 32) : hkdfExpand prk info n = (hmacSha256 prk (info ++ [1])).take n := by
  rw [hkdfExpand, show (n + 31) / 32 = 1 by omega]
  simp [hkdfBlocks]

theorem expandLabel_real {secret out : Bytes} {s : String} {n : Nat} {m : U8} (h : ExpandLabel real secret s n out) (hm : m.toNat = n) (h0 : 0 < n)
    (h32 : n ≤ 32) : out = (hmacSha256 secret (label m s ++ [1])).take n := by
  obtain ⟨info, h1, h2⟩ := h
  simp only [real, if_pos (show n ≤ 255 * 32 by omega)] at h2
  cases h2
  rw [expand_one h0 h32, label_unique h1 hm]

/-- C75. The Initial keys of every connection, in terms of HMAC-SHA256 alone: RFC 9001 sections 5.1 and 5.2 written out. -/
theorem C75_keys (server : Bool) (v : Version) (d : U160) (n : Nat) (hn : n ≤ 20) :
    ∃ c cid secret k, Connection.new real server v d n = .ok c ∧ cid.length = n ∧ beNat cid = cidVal d % 256 ^ n ∧
      secret = hmacSha256 (hmacSha256 initialSalt cid) (label 32 (if server then "server in" else "client in") ++ [1]) ∧
      k.hp = (hmacSha256 secret (label 16 "quic hp" ++ [1])).take 16 ∧ k.iv = (hmacSha256 secret (label 12 "quic iv" ++ [1])).take 12 ∧
      k.key = (hmacSha256 secret (label 16 "quic key" ++ [1])).take 16 ∧ c.localSecrets .initial = .ok (secretsOf real k) := by
  obtain ⟨c, hc⟩ := new_total real real_laws server v d n hn
  obtain ⟨cid, kl, kr, e1, ⟨secret, g1, g2, g3, g4⟩, _, rfl⟩ := new_ok' hc
  obtain ⟨l1, l2⟩ := toVarBytes_ok e1
  refine ⟨_, cid, secret, kl, hc, l1, l2, ?_, expandLabel_real g2 rfl (by decide) (by decide), expandLabel_real g3 rfl (by decide) (by decide),
    expandLabel_real g4 rfl (by decide) (by decide), rfl⟩
  have := expandLabel_real (m := 32) g1 rfl (by decide) (by decide)
  rw [List.take_of_length_le (by rw [hmac_length]; decide)] at this
  exact this

/-- C75. The mask is the first five bytes of the AES encryption of the sample (RFC 9001 section 5.4.3), although the library call pads: for every key
and sample. -/
theorem C75_mask (key sample : Bytes) (hk : key.length = 16) (hs : sample.length = 16) :
    ∃ m, hpMaskAes128Ecb real key sample = .ok m ∧ [m.m0, m.m1, m.m2, m.m3, m.m4] = (natBytes 16 (aesBlock (aesKeys key) sample)).take 5 := by
  have e : real.aesEcb key sample = some (natBytes 16 (aesBlock (aesKeys key) sample) ++ ecbBlocks (aesKeys key) 1 (List.replicate 16 16)) := by
    simp only [real, if_pos hk, aesEcb, pkcs7, hs, List.length_append, List.length_replicate]
    show some (ecbBlocks _ 2 _) = _
    rw [ecbBlocks, force_eq, List.take_left' hs, List.drop_left' hs]
    rfl
  simp only [hpMaskAes128Ecb, e, natBytes, List.cons_append]
  exact ⟨_, rfl, rfl⟩

/-- C75. Packets round-trip between real endpoints (C31 without any assumption on the libraries). -/
theorem C75_round_trip (bp bp' : Profile) (cs cr : Connection) (h : Peers real bp bp' cs cr) (hs : HasScid cs)
    (fs : List Frame) (hw : ∀ f ∈ fs, WellFormed f) (hp : ∀ f ∈ fs, Plain f) (token : Option Bytes)
    (hl : ∀ bs, serializeFrames fs false = .ok bs → bs.length < 2 ^ 30) (ht : (token.getD []).length < 2 ^ 28)
    (p : PacketInitial) (hb : (PacketInitial.new bp fs token cs).1 = .ok p) (later : List ConnOp) :
    p.token = token.getD [] ∧ p.packetPayload = fs ∧
    ∃ out, p.serialize (cs.run bp later).2 = .ok out ∧
      ∀ s, decodeNextPacket bp' cr (makeResultStream out ++ s) = (.ok (.initial p), s) :=
  C31_round_trip_partial real real_laws bp bp' cs cr h hs fs hw hp token hl ht p hb later

/-- Non-trivial instance, computed with the algorithms: a client's second packet, read by the server. -/
example : (do
    let client ← Connection.new real false .v1 ⟨1, 5⟩ 20
    let server ← Connection.new real true .v1 ⟨1, 5⟩ 20
    let r := PacketInitial.new .debug [.crypto ⟨0, 3, [1, 2, 3]⟩, .ping, .padding] (some [9, 9]) (client.run .debug [.setScid ⟨0, 0x1122⟩ 2, .nextPn .initial]).2
    let p ← r.1
    let out ← p.serialize r.2
    let q ← (decodeNextPacket .release server (makeResultStream out)).1
    pure (decide (q = .initial p ∧ p.packetNumber = 2 ∧ p.packetPayload.length = 3), out.length) : Out (Bool × Nat)) = .ok (true, 61) := by decide +kernel

end QuicSea
