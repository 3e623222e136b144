import Verif.Model.Crypto
/-
Laws of the external cryptographic libraries used as hypotheses of theorems, with an instance showing that they are consistent.
Nothing about secrecy or unforgeability is assumed anywhere.
-/
namespace Spec
open QuicSea

/-- What the libraries guarantee: HKDF-SHA256 gives 32-byte PRKs, accepts PRKs of at least 32 bytes and expands to any
length up to 255·32; AES-128-ECB of a 16-byte sample under a 16-byte key gives at least 5 bytes; AES-128-GCM with a
16-byte key, 12-byte nonce and inputs below 2^30 bytes always seals; the ciphertext is as long as the plaintext and the tag has
16 bytes; and `open` with the same key, nonce and associated data accepts exactly the ciphertexts and 16-byte tags that `seal`
produces. -/
structure PrimLaws (P : Prims) : Prop where
  extract_length : ∀ salt ikm, (P.hkdfExtract salt ikm).length = 32
  prk_ok : ∀ k : Bytes, 32 ≤ k.length → P.fromPrkOk k = true
  expand : ∀ prk info n, n ≤ 255 * 32 → ∃ o, P.hkdfExpand prk info n = some o ∧ o.length = n
  ecb : ∀ k s : Bytes, k.length = 16 → s.length = 16 → ∃ o, P.aesEcb k s = some o ∧ 5 ≤ o.length
  sealing : ∀ k iv ad p : Bytes, k.length = 16 → iv.length = 12 → ad.length < 2 ^ 30 → p.length < 2 ^ 30 →
    ∃ ct tag, P.gcmSeal k iv ad p = some (ct, tag)
  seal_length : ∀ k iv ad p ct tag : Bytes, P.gcmSeal k iv ad p = some (ct, tag) → ct.length = p.length ∧ tag.length = 16
  open_seal : ∀ k iv ad p ct tag : Bytes, P.gcmSeal k iv ad p = some (ct, tag) → P.gcmOpen k iv ad ct tag = some p
  seal_open : ∀ k iv ad p ct tag : Bytes, tag.length = 16 → P.gcmOpen k iv ad ct tag = some p → P.gcmSeal k iv ad p = some (ct, tag)

/-- Xor of all bytes. -/
def xorAll (b : Bytes) : U8 := b.foldl (· ^^^ ·) 0

/-- A toy instance (no security): key stream and tag are xor sums; every input still influences the result. -/
def toy : Prims where
  hkdfExtract salt ikm := List.replicate 31 (xorAll (salt.getD [])) ++ [xorAll ikm]
  fromPrkOk k := decide (32 ≤ k.length)
  hkdfExpand prk info n := if n ≤ 255 * 32 then some ((List.replicate n 0x07).set 0 (xorAll (prk ++ info))) else none
  aesEcb k s := some (s.map (· ^^^ xorAll k) ++ k)
  gcmSeal k iv ad p := some (p.map (· ^^^ xorAll k), List.replicate 13 (xorAll iv) ++ [xorAll ad, xorAll p, xorAll k])
  gcmOpen k iv ad ct tag :=
    let p := ct.map (· ^^^ xorAll k)
    if tag = List.replicate 13 (xorAll iv) ++ [xorAll ad, xorAll p, xorAll k] then some p else none

theorem map_xor_twice (k : U8) (p : Bytes) : (p.map (· ^^^ k)).map (· ^^^ k) = p := by
  induction p with
  | nil => rfl
  | cons a p ih => rw [List.map_cons, List.map_cons, ih, BitVec.xor_assoc, BitVec.xor_self, BitVec.xor_zero]

theorem toy_laws : PrimLaws toy where
  extract_length := by intro s i; simp [toy]
  prk_ok := by intro k h; simp [toy, h]
  expand := by intro prk info n h; exact ⟨_, if_pos h, by simp⟩
  ecb := by intro k s hk hs; exact ⟨_, rfl, by simp; omega⟩
  sealing := by intro k iv ad p hk hi _ _; exact ⟨_, _, rfl⟩
  seal_length := by
    intro k iv ad p ct tag h
    cases h
    simp
  open_seal := by
    intro k iv ad p ct tag h
    cases h
    simp only [toy, map_xor_twice, if_true]
  seal_open := by
    intro k iv ad p ct tag _ h
    simp only [toy] at h ⊢
    split at h
    · rename_i ht
      cases h
      rw [map_xor_twice, ht]
    · cases h

end Spec
