import Verif.Props.Crypto
import Verif.Props.Seal
import Verif.Proofs.Packet
import Verif.Props.Fixed
/-
C123: the keys made from a secret. C124: the header protection mask. And C39 in both directions for the expansion of a label.
-/
namespace Spec
open QuicSea

/-- RFC 9001 section 5.4.3: the mask is made of the first five bytes of AES-ECB of the sample under the header protection key. -/
def IsMask (P : Prims) (hp sample : Bytes) (m : Mask) : Prop :=
  ∃ r, P.aesEcb hp sample = some (m.m0 :: m.m1 :: m.m2 :: m.m3 :: m.m4 :: r)

end Spec

namespace QuicSea
open Spec

/-- **C39**, both directions: `hkdf_expand_label` returns exactly the expansion of the structure of RFC 8446, when the library takes the secret; it never panics. -/
theorem C39_expand_exact (P : Prims) (secret label context : Bytes) (n : Nat) :
    (hkdfExpandLabelSha256 P secret label context n).isPanic = false ∧ ∀ out, hkdfExpandLabelSha256 P secret label context n = .ok out ↔
      P.fromPrkOk secret = true ∧ ∃ info, IsHkdfLabel info n label context ∧ P.hkdfExpand secret info n = some out := by
  constructor
  · unfold hkdfExpandLabelSha256
    split
    · have hl := C39_label n label context
      split at hl
      · obtain ⟨info, hi, _⟩ := hl
        rw [hi, Out.ok_bind]
        split <;> rfl
      · cases hr : getHkdfLabelInfo n label context with
        | ok i => rw [hr] at hl; cases hl
        | err e => rfl
        | panic w => rw [hr] at hl; cases hl
    · rfl
  · intro out
    refine ⟨C39_expand P secret label context out n, ?_⟩
    rintro ⟨hp, info, hi, ho⟩
    obtain ⟨nb, l, c, h1, h2, h3, h4, e⟩ := id hi
    have hb := beNat_lt nb
    rw [h1] at hb
    obtain ⟨i, hg⟩ := getHkdfLabelInfo_fits n label context (by omega) (by have := c.isLt; omega) (by have := l.isLt; omega)
    have := isHkdfLabel_unique (getHkdfLabelInfo_ok hg).2.2.2 hi
    unfold hkdfExpandLabelSha256
    rw [if_pos hp, hg, Out.ok_bind, this, ho]

/-- What RFC 8446 and RFC 9001 call HKDF-Expand-Label with an empty context, in both directions. -/
theorem expandLabel_iff (P : Prims) (secret label : Bytes) (s : String) (hs : ascii s = label) (n : Nat) (out : Bytes) :
    hkdfExpandLabelSha256 P secret label [] n = .ok out ↔ P.fromPrkOk secret = true ∧ ExpandLabel P secret s n out := by
  rw [(C39_expand_exact P secret label [] n).2 out, ← hs]
  exact Iff.rfl

/-! ### C123 -/

/-- **C123.** From a secret of any bytes come exactly the keys of RFC 9001 section 5.1, if the library takes the secret, and otherwise an error. -/
theorem C123_derived (P : Prims) (secret : Bytes) (s : Secrets) :
    Secrets.fromSecret (TLS13_AES_128_GCM_SHA256 P) secret = .ok s ↔ P.fromPrkOk secret = true ∧ ∃ k, DerivedKeys P secret k ∧ s = secretsOf P k := by
  have e1 : ascii "quic hp" = HEADER_PROTECTION_LABEL := by decide +kernel
  have e2 : ascii "quic iv" = INITIAL_VECTOR_LABEL := by decide +kernel
  have e3 : ascii "quic key" = KEY_LABEL := by decide +kernel
  constructor
  · intro h
    unfold Secrets.fromSecret at h
    obtain ⟨hp, hhp, h⟩ := Out.bind_eq_ok h
    obtain ⟨iv, hiv, h⟩ := Out.bind_eq_ok h
    obtain ⟨key, hkey, h⟩ := Out.bind_eq_ok h
    unfold CipherSuite.getIvSecret at hiv
    obtain ⟨rv, hrv, hiv⟩ := Out.bind_eq_ok hiv
    cases hiv
    cases h
    have a := (expandLabel_iff P secret _ _ e1 16 hp).1 hhp
    exact ⟨a.1, ⟨hp, rv, key⟩, ⟨a.2, ((expandLabel_iff P secret _ _ e2 12 rv).1 hrv).2, ((expandLabel_iff P secret _ _ e3 16 key).1 hkey).2⟩, rfl⟩
  · rintro ⟨hp, k, ⟨h1, h2, h3⟩, rfl⟩
    have a := (expandLabel_iff P secret _ _ e1 16 k.hp).2 ⟨hp, h1⟩
    have b := (expandLabel_iff P secret _ _ e2 12 k.iv).2 ⟨hp, h2⟩
    have c := (expandLabel_iff P secret _ _ e3 16 k.key).2 ⟨hp, h3⟩
    have a' : (TLS13_AES_128_GCM_SHA256 P).getHpSecret secret HEADER_PROTECTION_LABEL = .ok k.hp := a
    have b' : (TLS13_AES_128_GCM_SHA256 P).getIvSecret secret INITIAL_VECTOR_LABEL = .ok (some k.iv) := by
      show (do let rv ← hkdfExpandLabelSha256 P secret INITIAL_VECTOR_LABEL [] 12; pure (some rv)) = _
      rw [b]; rfl
    have c' : (TLS13_AES_128_GCM_SHA256 P).getKey secret KEY_LABEL = .ok k.key := c
    unfold Secrets.fromSecret
    rw [a', Out.ok_bind, b', Out.ok_bind, c']
    rfl

theorem expand_bind_noPanic {P : Prims} {secret label : Bytes} {n : Nat} {f : Bytes → Out α} (hf : ∀ o, (f o).isPanic = false) :
    (hkdfExpandLabelSha256 P secret label [] n >>= f).isPanic = false := by
  have := (C39_expand_exact P secret label [] n).1
  cases h : hkdfExpandLabelSha256 P secret label [] n with
  | ok o => exact hf o
  | err e => rfl
  | panic w => rw [h] at this; cases this

/-- No secret makes the derivation panic. -/
theorem C123_no_panic (P : Prims) (secret : Bytes) : (Secrets.fromSecret (TLS13_AES_128_GCM_SHA256 P) secret).isPanic = false := by
  refine expand_bind_noPanic (P := P) fun hp => ?_
  show ((hkdfExpandLabelSha256 P secret INITIAL_VECTOR_LABEL [] 12 >>= fun rv => pure (some rv)) >>= _).isPanic = false
  cases h : hkdfExpandLabelSha256 P secret INITIAL_VECTOR_LABEL [] 12 with
  | ok rv => exact expand_bind_noPanic (P := P) fun key => rfl
  | err e => rfl
  | panic w =>
    have := (C39_expand_exact P secret INITIAL_VECTOR_LABEL [] 12).1
    rw [h] at this; cases this

/-- Every secret of at least 32 bytes gives keys, of the lengths of AES-128-GCM, and they are the only ones with these labels. -/
theorem C123_total (P : Prims) (hP : PrimLaws P) (secret : Bytes) (h : 32 ≤ secret.length) :
    ∃ k, Secrets.fromSecret (TLS13_AES_128_GCM_SHA256 P) secret = .ok (secretsOf P k) ∧ k.hp.length = 16 ∧ k.iv.length = 12 ∧ k.key.length = 16 ∧
      ∀ k', DerivedKeys P secret k' → k' = k := by
  have hp := hP.prk_ok secret h
  have ex : ∀ (s : String) (n : Nat), n ≤ 255 * 32 → (ascii s).length ≤ 249 → ∃ o, ExpandLabel P secret s n o ∧ o.length = n := by
    intro s n hn hl
    obtain ⟨o, ho, hol⟩ := expandLabel_ok P hP (secret := secret) (label := ascii s) (n := n) h hn (by omega)
    exact ⟨o, ((expandLabel_iff P secret _ s rfl n o).1 ho).2, hol⟩
  have un : ∀ {s : String} {n : Nat} {o o' : Bytes}, ExpandLabel P secret s n o → ExpandLabel P secret s n o' → o = o' := by
    rintro s n o o' ⟨i, hi, ho⟩ ⟨i', hi', ho'⟩
    rw [isHkdfLabel_unique hi hi', ho'] at ho
    cases ho
    rfl
  obtain ⟨a, ha, la⟩ := ex "quic hp" 16 (by decide) (by decide +kernel)
  obtain ⟨b, hb, lb⟩ := ex "quic iv" 12 (by decide) (by decide +kernel)
  obtain ⟨c, hc, lc⟩ := ex "quic key" 16 (by decide) (by decide +kernel)
  refine ⟨⟨a, b, c⟩, (C123_derived P secret _).2 ⟨hp, _, ⟨ha, hb, hc⟩, rfl⟩, la, lb, lc, ?_⟩
  rintro ⟨a', b', c'⟩ ⟨h1, h2, h3⟩
  cases un h1 ha
  cases un h2 hb
  cases un h3 hc
  rfl

/-- **C123** for Initial packets: the keys of either side are exactly those of RFC 9001 section 5.2 for the bytes of the connection id, of any number. -/
theorem C123_initial (P : Prims) (hP : PrimLaws P) (server : Bool) (cid : Bytes) (v : Version) (s : Secrets) :
    Secrets.fromInitial P server cid v = .ok s ↔ ∃ k, InitialKeys P server cid k ∧ s = secretsOf P k := by
  constructor
  · intro h
    obtain ⟨k, rfl, hk⟩ := fromInitial_ok h
    exact ⟨k, hk, rfl⟩
  · rintro ⟨k, hk, rfl⟩
    obtain ⟨k', h, _⟩ := fromInitial_total P hP server cid v
    obtain ⟨k'', e, hk'⟩ := fromInitial_ok h
    have : k' = k'' := by
      have := congrArg Secrets.hp e
      have h2 := congrArg Secrets.iv e
      have h3 := congrArg Secrets.key e
      cases k'; cases k''
      simp only [secretsOf] at this h2 h3
      cases this; cases h2; cases h3; rfl
    rw [h, this, initialKeys_unique hk' hk]

/-- Two different directions of one id, with the crate's algorithms (RFC 9001 appendix A.1). -/
example : ∃ k, Secrets.fromSecret (TLS13_AES_128_GCM_SHA256 real) (List.replicate 32 7) = .ok (secretsOf real k) ∧ k.iv.length = 12 := by
  obtain ⟨k, h, _, hl, _⟩ := C123_total real real_laws (List.replicate 32 7) (by decide)
  exact ⟨k, h, hl⟩
/-- A secret that the library does not take: 31 bytes. -/
example : (Secrets.fromSecret (TLS13_AES_128_GCM_SHA256 toy) (List.replicate 31 7)).isErr = true := by decide +kernel

/-! ### C124 -/

theorem mask_eq (P : Prims) (x : Secrets) (hx : x.cipherSuite = TLS13_AES_128_GCM_SHA256 P) :
    x.getHeaderProtectionMask = (varBytesFromStream 16 >>= fun sample => Rd.lift (hpMaskAes128Ecb P x.hp sample) : Rd Mask) := by
  unfold Secrets.getHeaderProtectionMask
  rw [hx]
  rfl

/-- **C124.** The mask is the one of RFC 9001 section 5.4.3 of the next 16 bytes, which are read, and nothing else is. -/
theorem C124_mask (P : Prims) (x : Secrets) (hx : x.cipherSuite = TLS13_AES_128_GCM_SHA256 P) (s s' : Stream) (m : Mask) :
    x.getHeaderProtectionMask s = (.ok m, s') ↔ ∃ sample, sample.length = 16 ∧ s = makeResultStream sample ++ s' ∧ IsMask P x.hp sample m := by
  rw [mask_eq P x hx]
  constructor
  · intro h
    obtain ⟨a, t, h1, h2⟩ := Rd.bind_eq_ok h
    obtain ⟨bs, rfl, rfl, hl⟩ := varBytes_sound _ _ _ _ h1
    rw [Rd.lift_apply] at h2
    injection h2 with h2 h3
    subst h3
    exact ⟨bs, hl, rfl, hpMask_ok.1 h2⟩
  · rintro ⟨sample, hl, rfl, hm⟩
    rw [Rd.bind_ok (varBytes_reads' hl _), Rd.lift_apply, hpMask_ok.2 hm]

/-- The other outcomes: fewer than 16 bytes are an error, the stream's own if it has one there; a sample the cipher does not take is a panic, which
does not happen with a key of 16 bytes. -/
theorem C124_outcomes (P : Prims) (x : Secrets) (hx : x.cipherSuite = TLS13_AES_128_GCM_SHA256 P) (bs : Bytes) :
    (bs.length < 16 → (∃ e, x.getHeaderProtectionMask (makeResultStream bs) = (.err e, [])) ∧
      ∀ e s, x.getHeaderProtectionMask (makeResultStream bs ++ .error e :: s) = (.err e, s)) ∧
    (bs.length = 16 → ∀ s, ((x.getHeaderProtectionMask (makeResultStream bs ++ s)).1.isPanic = true ↔ ¬ ∃ m, IsMask P x.hp bs m) ∧
      (x.getHeaderProtectionMask (makeResultStream bs ++ s)).1.isErr = false) ∧
    (PrimLaws P → x.hp.length = 16 → bs.length = 16 → ∃ m, IsMask P x.hp bs m) := by
  rw [mask_eq P x hx]
  obtain ⟨h1, h2, h3⟩ := C09_var_bytes_exact 16 bs
  refine ⟨fun h => ⟨⟨_, Rd.bind_err (h2 h)⟩, fun e s => ?_⟩, fun h s => ?_, fun hP hk hl => ?_⟩
  · exact Rd.bind_err (h3 e s h)
  · rw [Rd.bind_ok (h1 s h), Rd.lift_apply]
    cases hm : hpMaskAes128Ecb P x.hp bs with
    | ok m => exact ⟨⟨nofun, fun hn => absurd ⟨m, hpMask_ok.1 hm⟩ hn⟩, rfl⟩
    | err e => unfold hpMaskAes128Ecb at hm; split at hm <;> cases hm
    | panic w =>
      refine ⟨⟨fun _ ⟨m, h⟩ => ?_, fun _ => rfl⟩, rfl⟩
      rw [hpMask_ok.2 h] at hm
      cases hm
  · obtain ⟨m, hm⟩ := hpMask_noPanic hP hk hl
    exact ⟨m, hpMask_ok.1 hm⟩

/-- Both sides of a packet see the same sample: what lies after the 16 bytes, and whether it is there, makes no difference to the mask. -/
theorem C124_only_the_sample (P : Prims) (x : Secrets) (hx : x.cipherSuite = TLS13_AES_128_GCM_SHA256 P) (sample : Bytes) (hl : sample.length = 16)
    (s t : Stream) : (x.getHeaderProtectionMask (makeResultStream sample ++ s)).1 = (x.getHeaderProtectionMask (makeResultStream sample ++ t)).1 := by
  rw [mask_eq P x hx, Rd.bind_ok (varBytes_reads' hl s), Rd.bind_ok (varBytes_reads' hl t)]
  rfl

/-- Seventeen bytes, of which one is left; the mask of the toy cipher is the sample xored with the sum of the key. -/
example : (secretsOf toy ⟨[1, 2], [], []⟩).getHeaderProtectionMask (makeResultStream [1,2,3,4,5,6,7,8,9,10,11,12,13,14,15,16,17]) =
    (.ok ⟨2, 1, 0, 7, 6⟩, [.ok 17]) := by decide +kernel
/-- The cases of `C124_outcomes` with a sample that is not taken: the crate's cipher and a key of 15 bytes. -/
example : ¬ ∃ m, IsMask real (List.replicate 15 1) (List.replicate 16 2) m := by
  rintro ⟨m, r, h⟩
  have : real.aesEcb (List.replicate 15 1) (List.replicate 16 2) = none := by decide +kernel
  rw [this] at h
  cases h

end QuicSea
