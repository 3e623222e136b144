import Verif.Spec.RealPrims
import Verif.Proofs.PacketNumber
import Verif.Proofs.Crypto
/-
C122: sealing and opening one payload.
-/
namespace Spec
open QuicSea

/-- RFC 9001 section 5.3: `sealed` protects `plain` under packet number `pn`. The initialisation vector and the associated data are there, the nonce is the
vector xored with the 64-bit packet number, and the tag follows the ciphertext. -/
def SealedAs (P : Prims) (key : Bytes) (iv ad : Option Bytes) (pn : Nat) (plain sealed : Bytes) : Prop :=
  ∃ v a nb ct tag : Bytes, iv = some v ∧ ad = some a ∧ nb.length = 8 ∧ beNat nb = pn ∧ P.gcmSeal key (rfcNonce v nb) a plain = some (ct, tag) ∧
    sealed = ct ++ tag

end Spec

namespace QuicSea
open Spec

/-- Keys of the crate's cipher suite, of any lengths; the initialisation vector, if there is one, has at least the 8 bytes that RFC 9001 section 5.3 asks for. -/
structure Secrets.OfSuite (P : Prims) (s : Secrets) : Prop where
  suite : s.cipherSuite = TLS13_AES_128_GCM_SHA256 P
  vector : ∀ v, s.iv = some v → 8 ≤ v.length

theorem nb_unique {nb : Bytes} {pn : U64} (hl : nb.length = 8) (hv : beNat nb = pn.toNat) : nb = toBeBytes 8 pn :=
  beNat_inj (by rw [hl, toBeBytes_length]) (by rw [hv, beNat_toBeBytes' 8 pn])

/-- **C122.** What is returned for a payload is what RFC 9001 section 5.3 says; nothing is returned without an initialisation vector or without associated data. -/
theorem C122_seals (P : Prims) (s : Secrets) (hs : s.OfSuite P) (plain : Bytes) (ad : Option Bytes) (pn : U64) (out : Bytes) :
    s.encryptPayload plain ad pn = .ok out ↔ SealedAs P s.key s.iv ad pn.toNat plain out := by
  obtain ⟨h1, h2⟩ := hs
  unfold Secrets.encryptPayload SealedAs
  rw [h1]
  cases hi : s.iv with
  | none =>
    simp only [Option.map_none, TLS13_AES_128_GCM_SHA256, encryptAes128Gcm]
    exact ⟨nofun, fun ⟨_, _, _, _, _, h, _⟩ => nomatch h⟩
  | some v =>
    simp only [Option.map_some, TLS13_AES_128_GCM_SHA256, encryptAes128Gcm]
    cases ad with
    | none => exact ⟨nofun, fun ⟨_, _, _, _, _, _, h, _⟩ => nomatch h⟩
    | some a =>
      simp only [internalEncryptAes128Gcm, packetNonce_eq v pn (h2 v hi)]
      constructor
      · intro h
        cases hg : P.gcmSeal s.key (rfcNonce v (toBeBytes 8 pn)) a plain with
        | none => rw [hg] at h; cases h
        | some x =>
          rw [hg] at h
          cases h
          exact ⟨v, a, toBeBytes 8 pn, x.1, x.2, rfl, rfl, toBeBytes_length 8 pn, beNat_toBeBytes' 8 pn, hg, rfl⟩
      · rintro ⟨v', a', nb, ct, tag, hv, ha, hl, hb, hg, rfl⟩
        cases hv; cases ha
        rw [nb_unique hl hb] at hg
        rw [hg]

/-- **C122.** A payload is opened exactly if it is what sealing some plaintext returns for the same keys, associated data and number, and what comes back is that
plaintext. -/
theorem C122_opens (P : Prims) (hP : PrimLaws P) (s : Secrets) (hs : s.OfSuite P) (sealed : Bytes) (ad : Option Bytes) (pn : U64) (plain : Bytes) :
    s.decryptPayload sealed ad pn = .ok plain ↔ SealedAs P s.key s.iv ad pn.toNat plain sealed := by
  obtain ⟨h1, h2⟩ := hs
  unfold Secrets.decryptPayload SealedAs
  rw [h1]
  cases hi : s.iv with
  | none =>
    simp only [Option.map_none, TLS13_AES_128_GCM_SHA256, decryptAes128Gcm]
    exact ⟨nofun, fun ⟨_, _, _, _, _, h, _⟩ => nomatch h⟩
  | some v =>
    simp only [Option.map_some, TLS13_AES_128_GCM_SHA256, decryptAes128Gcm]
    cases ad with
    | none => exact ⟨nofun, fun ⟨_, _, _, _, _, _, h, _⟩ => nomatch h⟩
    | some a =>
      simp only [internalDecryptAes128Gcm, AES_128_GCM_TAG_LEN, packetNonce_eq v pn (h2 v hi)]
      constructor
      · intro h
        by_cases hlen : sealed.length < 16
        · rw [if_pos hlen] at h; cases h
        · rw [if_neg hlen] at h
          cases hg : P.gcmOpen s.key (rfcNonce v (toBeBytes 8 pn)) a (sealed.take (sealed.length - 16)) (sealed.drop (sealed.length - 16)) with
          | none => rw [hg] at h; cases h
          | some x =>
            rw [hg] at h
            cases h
            exact ⟨v, a, toBeBytes 8 pn, _, _, rfl, rfl, toBeBytes_length 8 pn, beNat_toBeBytes' 8 pn,
              hP.seal_open _ _ _ _ _ _ (by rw [List.length_drop]; omega) hg, (List.take_append_drop _ _).symm⟩
      · rintro ⟨v', a', nb, ct, tag, hv, ha, hl, hb, hg, rfl⟩
        cases hv; cases ha
        rw [nb_unique hl hb] at hg
        have ht := (hP.seal_length _ _ _ _ _ _ hg).2
        have hn : (ct ++ tag).length - 16 = ct.length := by rw [List.length_append, ht]; omega
        rw [if_neg (by rw [List.length_append, ht]; omega), hn, List.take_left, List.drop_left, hP.open_seal _ _ _ _ _ _ hg]

/-- Sealing and then opening gives the payload back; opening and then sealing gives the bytes back. -/
theorem C122_inverse (P : Prims) (hP : PrimLaws P) (s : Secrets) (hs : s.OfSuite P) (x y : Bytes) (ad : Option Bytes) (pn : U64) :
    s.encryptPayload x ad pn = .ok y ↔ s.decryptPayload y ad pn = .ok x :=
  (C122_seals P s hs x ad pn y).trans (C122_opens P hP s hs y ad pn x).symm

/-- Without an initialisation vector, or without associated data, both return an error. -/
theorem C122_refuses (P : Prims) (s : Secrets) (hs : s.cipherSuite = TLS13_AES_128_GCM_SHA256 P) (x : Bytes) (ad : Option Bytes) (pn : U64)
    (h : s.iv = none ∨ ad = none) : (∃ e, s.encryptPayload x ad pn = .err e) ∧ ∃ e, s.decryptPayload x ad pn = .err e := by
  unfold Secrets.encryptPayload Secrets.decryptPayload
  rw [hs]
  cases hi : s.iv with
  | none => exact ⟨⟨_, rfl⟩, _, rfl⟩
  | some v =>
    rcases h with h | rfl
    · rw [hi] at h; cases h
    · exact ⟨⟨_, rfl⟩, _, rfl⟩

/-- With keys of the right lengths, every payload below 2^30 bytes is sealed, to 16 bytes more. -/
theorem C122_total (P : Prims) (hP : PrimLaws P) (s : Secrets) (hs : s.cipherSuite = TLS13_AES_128_GCM_SHA256 P) (v : Bytes) (hv : s.iv = some v)
    (hvl : v.length = 12) (hk : s.key.length = 16) (plain a : Bytes) (pn : U64) (ha : a.length < 2 ^ 30) (hp : plain.length < 2 ^ 30) :
    ∃ out, s.encryptPayload plain (some a) pn = .ok out ∧ out.length = plain.length + 16 := by
  have hvec : ∀ v', s.iv = some v' → 8 ≤ v'.length := by
    intro v' h
    rw [hv] at h
    cases h
    omega
  have hn : (rfcNonce v (toBeBytes 8 pn)).length = 12 := by rw [← packetNonce_eq v pn (by omega), packetNonce_length, hvl]
  obtain ⟨ct, tag, hg⟩ := hP.sealing s.key (rfcNonce v (toBeBytes 8 pn)) a plain hk hn ha hp
  obtain ⟨h1, h2⟩ := hP.seal_length _ _ _ _ _ _ hg
  exact ⟨ct ++ tag, (C122_seals P s ⟨hs, hvec⟩ plain (some a) pn _).2
    ⟨v, a, _, ct, tag, hv, rfl, toBeBytes_length 8 pn, beNat_toBeBytes' 8 pn, hg, rfl⟩, by rw [List.length_append, h1, h2]⟩

/-- Sealing never panics; opening panics exactly for inputs shorter than a tag, when there are an initialisation vector and associated data. -/
theorem C122_panics (P : Prims) (s : Secrets) (hs : s.cipherSuite = TLS13_AES_128_GCM_SHA256 P) (x : Bytes) (ad : Option Bytes) (pn : U64) :
    (s.encryptPayload x ad pn).isPanic = false ∧
    ((s.decryptPayload x ad pn).isPanic = true ↔ s.iv ≠ none ∧ ad ≠ none ∧ x.length < 16) := by
  unfold Secrets.encryptPayload Secrets.decryptPayload
  rw [hs]
  cases hi : s.iv with
  | none => exact ⟨rfl, nofun, fun h => absurd rfl h.1⟩
  | some v =>
    cases ad with
    | none => exact ⟨rfl, nofun, fun h => absurd rfl h.2.1⟩
    | some a =>
      simp only [Option.map_some, TLS13_AES_128_GCM_SHA256, encryptAes128Gcm, decryptAes128Gcm, internalEncryptAes128Gcm,
        internalDecryptAes128Gcm]
      refine ⟨by split <;> rfl, ?_⟩
      by_cases hx : x.length < AES_128_GCM_TAG_LEN
      · rw [if_pos hx]; exact ⟨fun _ => ⟨nofun, nofun, hx⟩, fun _ => rfl⟩
      · rw [if_neg hx]
        refine ⟨fun h => ?_, fun h => absurd h.2.2 hx⟩
        split at h <;> cases h

/-- A case with the crate's algorithms: keys of an Initial packet, two bytes, number 2^62 + 5. -/
example : ∃ out, (secretsOf real ⟨List.replicate 16 1, List.replicate 12 2, List.replicate 16 3⟩).encryptPayload [7, 8] (some [9]) (2 ^ 62 + 5) = .ok out ∧
    out.length = 18 ∧ (secretsOf real ⟨List.replicate 16 1, List.replicate 12 2, List.replicate 16 3⟩).decryptPayload out (some [9]) (2 ^ 62 + 5) = .ok [7, 8] := by
  obtain ⟨out, h1, h2⟩ := C122_total real real_laws (secretsOf real ⟨List.replicate 16 1, List.replicate 12 2, List.replicate 16 3⟩) rfl (List.replicate 12 2) rfl
    rfl rfl [7, 8] [9] (2 ^ 62 + 5) (by decide) (by decide)
  refine ⟨out, h1, h2, (C122_inverse real real_laws _ ⟨rfl, ?_⟩ _ _ _ _).1 h1⟩
  intro v h
  cases h
  decide
/-- Keys without an initialisation vector exist, and seal nothing. -/
example : (({ secretsOf toy ⟨[], [], [3]⟩ with iv := none } : Secrets).encryptPayload [7] (some [9]) 1).isPanic = false ∧
    ({ secretsOf toy ⟨[], [], [3]⟩ with iv := none } : Secrets).encryptPayload [7] (some [9]) 1 =
      .err (.internalError "aes_128_gcm requires an initialsation vector") := ⟨rfl, rfl⟩

end QuicSea
