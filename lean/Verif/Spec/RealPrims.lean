import Verif.Spec.Prims
import Verif.Spec.Gcm
/-
The algorithms the crate uses, as an instance of `Prims`, and a proof that they satisfy the laws. So theorems that assume `PrimLaws P` hold for
the algorithms themselves, not only for some `P`.
-/
namespace Spec
open QuicSea

/-- What `hkdf`, `sha2` and `openssl` compute. Library errors: a PRK of less than 32 bytes, an output of more than 255·32 bytes (RFC 5869 section
2.3), a key that is not of 16 bytes, sizes outside SP 800-38D section 5.2.1.1. The crate only passes 16-byte tags; other tags are
refused here. -/
def real : Prims where
  hkdfExtract := hkdfExtract
  fromPrkOk k := decide (32 ≤ k.length)
  hkdfExpand prk info n := if n ≤ 255 * 32 then some (hkdfExpand prk info n) else none
  aesEcb k s := if k.length = 16 then some (aesEcb k s) else none
  gcmSeal k iv ad p := if k.length = 16 ∧ gcmSizes iv ad p = true then some (gcmSeal k iv ad p) else none
  gcmOpen k iv ad ct tag := if k.length = 16 ∧ gcmSizes iv ad ct = true then gcmOpen k iv ad ct tag else none

theorem force_eq (n : Nat) (f : Nat → α) : force n f = f n := by cases n <;> rfl
theorem forceList_eq (l : List Nat) (f : List Nat → α) : forceList l f = f l := by
  induction l generalizing f with
  | nil => rfl
  | cons x xs ih => rw [forceList, force_eq, ih]

@[simp] theorem natBytes_length (len n : Nat) : (natBytes len n).length = len := by
  induction len with
  | zero => rfl
  | succ k ih => rw [natBytes, List.length_cons, ih]

theorem sha256_length (m : Bytes) : (sha256 m).length = 32 := by simp [sha256]
theorem hmac_length (k m : Bytes) : (hmacSha256 k m).length = 32 := sha256_length _
theorem hkdfBlocks_length (prk info : Bytes) (n : Nat) : ∀ t i, (hkdfBlocks prk info n t i).length = 32 * n := by
  induction n with
  | zero => intros; rfl
  | succ n ih => intro t i; rw [hkdfBlocks, List.length_append, hmac_length, ih]; omega
theorem hkdfExpand_length (prk info : Bytes) (n : Nat) : (hkdfExpand prk info n).length = n := by
  rw [hkdfExpand, List.length_take, hkdfBlocks_length]; omega

theorem ecbBlocks_length (keys : List (List Nat)) (n : Nat) : ∀ m, (ecbBlocks keys n m).length = 16 * n := by
  induction n with
  | zero => intro m; rfl
  | succ n ih => intro m; rw [ecbBlocks, force_eq, List.length_append, natBytes_length, ih]; omega
theorem aesEcb_length (k m : Bytes) : (aesEcb k m).length = 16 * (m.length / 16 + 1) := by
  simp only [aesEcb, ecbBlocks_length, pkcs7, List.length_append, List.length_replicate]
  omega

theorem gctr_length (keys : List (List Nat)) (n : Nat) : ∀ cb, (gctr keys n cb).length = 16 * n := by
  induction n with
  | zero => intro m; rfl
  | succ n ih => intro m; rw [gctr, force_eq, force_eq, List.length_append, natBytes_length, ih]; omega
theorem gcmXor_length (keys : List (List Nat)) (j : Nat) (m : Bytes) : (gcmXor keys j m).length = m.length := by
  rw [gcmXor, List.length_zipWith, gctr_length]; omega
theorem zip_xor_twice (m : Bytes) : ∀ k : Bytes, m.length ≤ k.length → List.zipWith (· ^^^ ·) (List.zipWith (· ^^^ ·) m k) k = m := by
  induction m with
  | nil => intro k _; rfl
  | cons a m ih =>
    intro k h
    cases k with
    | nil => simp at h
    | cons b k =>
      rw [List.zipWith_cons_cons, List.zipWith_cons_cons, ih k (by simpa using h), BitVec.xor_assoc, BitVec.xor_self, BitVec.xor_zero]
theorem gcmXor_twice (keys : List (List Nat)) (j : Nat) (m : Bytes) : gcmXor keys j (gcmXor keys j m) = m := by
  rw [gcmXor, gcmXor_length]
  exact zip_xor_twice m _ (by rw [gctr_length]; omega)

theorem gcmSizes_congr {iv ad m m' : Bytes} (h : m.length = m'.length) : gcmSizes iv ad m = gcmSizes iv ad m' := by
  rw [gcmSizes, gcmSizes, h]

theorem gcmStart_spec (key iv : Bytes) : ∃ keys h j, (∀ ad p, gcmSeal key iv ad p = (gcmXor keys j p, gcmTag keys h j ad (gcmXor keys j p))) ∧
    ∀ ad ct tag, gcmOpen key iv ad ct tag = if tag = gcmTag keys h j ad ct then some (gcmXor keys j ct) else none := by
  let h0 := aesBlock (aesKeys key) (List.replicate 16 0)
  refine ⟨aesKeys key, h0, if iv.length = 12 then bytesNat iv * 2 ^ 32 + 1 else ghash h0 (gcmString iv ++ [8 * iv.length]) 0,
    fun ad p => ?_, fun ad ct tag => ?_⟩
  · simp only [gcmSeal, gcmStart, force_eq, h0]
  · simp only [gcmOpen, gcmStart, force_eq, h0]

/-- The laws hold for the algorithms. -/
theorem real_laws : PrimLaws real where
  extract_length := fun _ _ => hmac_length _ _
  prk_ok := fun _ h => decide_eq_true h
  expand := fun prk info n h => ⟨_, if_pos h, hkdfExpand_length prk info n⟩
  ecb := fun k s hk hs => ⟨_, if_pos hk, by rw [aesEcb_length]; omega⟩
  sealing := by
    intro k iv ad p hk hi ha hp
    exact ⟨_, _, if_pos ⟨hk, decide_eq_true (by omega)⟩⟩
  seal_length := by
    intro k iv ad p ct tag h
    obtain ⟨keys, hh, j, hs, _⟩ := gcmStart_spec k iv
    simp only [real, hs] at h
    split at h
    · cases h
      exact ⟨gcmXor_length .., natBytes_length ..⟩
    · cases h
  open_seal := by
    intro k iv ad p ct tag h
    obtain ⟨keys, hh, j, hs, ho⟩ := gcmStart_spec k iv
    simp only [real, hs] at h ⊢
    split at h
    · rename_i hc
      cases h
      rw [gcmSizes_congr (gcmXor_length keys j p), if_pos hc, ho, if_pos rfl, gcmXor_twice]
    · cases h
  seal_open := by
    intro k iv ad p ct tag _ h
    obtain ⟨keys, hh, j, hs, ho⟩ := gcmStart_spec k iv
    simp only [real, ho] at h ⊢
    split at h
    · rename_i hc
      split at h
      · rename_i ht
        cases h
        rw [gcmSizes_congr (gcmXor_length keys j ct), if_pos hc, hs, gcmXor_twice, ht]
      · cases h
    · cases h

end Spec
