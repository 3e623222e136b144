import Verif.Spec.Protect
import Verif.Proofs.PacketNumber
/-
Key derivation.
-/
namespace QuicSea
open Spec

theorem getHkdfLabelInfo_ok {n : Nat} {label context : Bytes} {info : List Bytes} (h : getHkdfLabelInfo n label context = .ok info) :
    n ≤ 65535 ∧ context.length ≤ 255 ∧ 6 + label.length ≤ 255 ∧ IsHkdfLabel info.flatten n label context := by
  unfold getHkdfLabelInfo at h
  split at h
  · cases h
  · split at h
    · cases h
    · dsimp only at h
      split at h
      · cases h
      · rename_i h1 h2 h3
        have e : (TLS13_PREFIX ++ label).length = 6 + label.length := by rw [List.length_append]; rfl
        rw [e] at h3
        cases h
        refine ⟨by omega, by omega, by omega, toBeBytes 2 (BitVec.ofNat 16 n), BitVec.ofNat 8 (6 + label.length),
          BitVec.ofNat 8 context.length, toBeBytes_length _ _, ?_, ?_, ?_, ?_⟩
        · rw [beNat_toBeBytes' 2 (BitVec.ofNat 16 n)]
          show (BitVec.ofNat 16 n).toNat = n
          rw [BitVec.toNat_ofNat]; omega
        · rw [BitVec.toNat_ofNat]; omega
        · rw [BitVec.toNat_ofNat]; omega
        · rw [e]
          have t : ∀ x : U8, toBeBytes 1 x = [x] := by
            intro x
            simp [toBeBytes]
          simp only [t, List.flatten_cons, List.flatten_nil, List.append_nil, List.append_assoc]
          rw [show ascii "tls13 " = TLS13_PREFIX by decide +kernel]
theorem getHkdfLabelInfo_fits (n : Nat) (label context : Bytes) (h1 : n ≤ 65535) (h2 : context.length ≤ 255) (h3 : 6 + label.length ≤ 255) :
    ∃ info, getHkdfLabelInfo n label context = .ok info := by
  have e : (TLS13_PREFIX ++ label).length = 6 + label.length := by rw [List.length_append]; rfl
  unfold getHkdfLabelInfo
  rw [if_neg (by omega), if_neg (by omega)]
  dsimp only
  rw [if_neg (by omega)]
  exact ⟨_, rfl⟩

theorem isHkdfLabel_inj {a b : Bytes} {n m : Nat} {l l' c c' : Bytes} (h : IsHkdfLabel a n l c) (h' : IsHkdfLabel b m l' c') (e : a = b) :
    n = m ∧ l = l' ∧ c = c' := by
  obtain ⟨nb, x, y, h1, h2, h3, h4, rfl⟩ := h
  obtain ⟨nb', x', y', g1, g2, g3, g4, rfl⟩ := h'
  simp only [List.append_assoc] at e
  obtain ⟨e1, f1⟩ := List.append_inj e (by omega)
  obtain ⟨e2, f2⟩ := List.append_inj f1 rfl
  obtain ⟨_, f3⟩ := List.append_inj f2 rfl
  have hx : x = x' := by injection e2
  have hl : x.toNat = x'.toNat := by rw [hx]
  obtain ⟨e3, f4⟩ := List.append_inj f3 (by omega)
  obtain ⟨_, f5⟩ := List.append_inj f4 rfl
  exact ⟨by rw [← h2, ← g2, e1], e3, f5⟩
theorem isHkdfLabel_unique {a b : Bytes} {n : Nat} {l c : Bytes} (h : IsHkdfLabel a n l c) (h' : IsHkdfLabel b n l c) : a = b := by
  obtain ⟨nb, x, y, h1, h2, h3, h4, rfl⟩ := h
  obtain ⟨nb', x', y', g1, g2, g3, g4, rfl⟩ := h'
  have : nb = nb' := beNat_inj (by omega) (by omega)
  have hx : x = x' := BitVec.eq_of_toNat_eq (by omega)
  have hy : y = y' := BitVec.eq_of_toNat_eq (by omega)
  subst this hx hy
  rfl

theorem expandLabel_of_ok {P : Prims} {secret label : Bytes} {n : Nat} {out : Bytes} {s : String} (hs : ascii s = label)
    (h : hkdfExpandLabelSha256 P secret label [] n = .ok out) : ExpandLabel P secret s n out := by
  unfold hkdfExpandLabelSha256 at h
  split at h
  · obtain ⟨info, hi, h⟩ := Out.bind_eq_ok h
    split at h
    · cases h
      exact ⟨info.flatten, by rw [hs]; exact (getHkdfLabelInfo_ok hi).2.2.2, by assumption⟩
    · cases h
  · cases h
theorem expandLabel_ok (P : Prims) (hP : PrimLaws P) {secret label : Bytes} {n : Nat} (hs : 32 ≤ secret.length) (hn : n ≤ 255 * 32)
    (hl : 6 + label.length ≤ 255) : ∃ out, hkdfExpandLabelSha256 P secret label [] n = .ok out ∧ out.length = n := by
  obtain ⟨info, hi⟩ := getHkdfLabelInfo_fits n label [] (by omega) (by simp) hl
  obtain ⟨o, ho, hol⟩ := hP.expand secret info.flatten n hn
  refine ⟨o, ?_, hol⟩
  unfold hkdfExpandLabelSha256
  rw [if_pos (hP.prk_ok secret hs), hi, Out.ok_bind, ho]

/-- The `Secrets` value holding given keys. -/
def secretsOf (P : Prims) (k : Keys) : Secrets := { cipherSuite := TLS13_AES_128_GCM_SHA256 P, hp := k.hp, iv := some k.iv, key := k.key }

/-- Lengths for AES-128-GCM. -/
def KeyLens (k : Keys) : Prop := k.hp.length = 16 ∧ k.iv.length = 12 ∧ k.key.length = 16

theorem fromInitial_ok {P : Prims} {srv : Bool} {cid : Bytes} {v : Version} {s : Secrets} (h : Secrets.fromInitial P srv cid v = .ok s) :
    ∃ k, s = secretsOf P k ∧ InitialKeys P srv cid k := by
  unfold Secrets.fromInitial at h
  obtain ⟨sec, hsec, h⟩ := Out.bind_eq_ok h
  unfold Secrets.fromSecret at h
  obtain ⟨hp, hhp, h⟩ := Out.bind_eq_ok h
  obtain ⟨iv, hiv, h⟩ := Out.bind_eq_ok h
  obtain ⟨key, hkey, h⟩ := Out.bind_eq_ok h
  unfold CipherSuite.getIvSecret at hiv
  obtain ⟨rv, hrv, hiv⟩ := Out.bind_eq_ok hiv
  cases hiv
  cases h
  refine ⟨⟨hp, rv, key⟩, rfl, sec, ?_, ?_, ?_, ?_⟩
  · cases v
    have e : initialSalt = Version.getKdfInitialSalt .v1 := by decide +kernel
    rw [e]
    cases srv
    · exact expandLabel_of_ok (by decide +kernel) hsec
    · exact expandLabel_of_ok (by decide +kernel) hsec
  · exact expandLabel_of_ok (by decide +kernel) hhp
  · exact expandLabel_of_ok (by decide +kernel) hrv
  · exact expandLabel_of_ok (by decide +kernel) hkey
theorem fromInitial_total (P : Prims) (hP : PrimLaws P) (srv : Bool) (cid : Bytes) (v : Version) :
    ∃ k, Secrets.fromInitial P srv cid v = .ok (secretsOf P k) ∧ KeyLens k := by
  obtain ⟨sec, h1, l1⟩ := expandLabel_ok P hP (secret := P.hkdfExtract (some v.getKdfInitialSalt) cid)
    (label := if srv then SERVER_INITIAL_SECRET_LABEL else CLIENT_INITIAL_SECRET_LABEL) (n := 32)
    (by rw [hP.extract_length]; omega) (by decide) (by cases srv <;> decide)
  obtain ⟨hp, h2, l2⟩ := expandLabel_ok P hP (secret := sec) (label := HEADER_PROTECTION_LABEL) (n := 16) (by omega) (by decide) (by decide)
  obtain ⟨iv, h3, l3⟩ := expandLabel_ok P hP (secret := sec) (label := INITIAL_VECTOR_LABEL) (n := 12) (by omega) (by decide) (by decide)
  obtain ⟨key, h4, l4⟩ := expandLabel_ok P hP (secret := sec) (label := KEY_LABEL) (n := 16) (by omega) (by decide) (by decide)
  refine ⟨⟨hp, iv, key⟩, ?_, l2, l3, l4⟩
  have e1 : (TLS13_AES_128_GCM_SHA256 P).getHpSecret sec HEADER_PROTECTION_LABEL = .ok hp := h2
  have e2 : (TLS13_AES_128_GCM_SHA256 P).getIvSecret sec INITIAL_VECTOR_LABEL = .ok (some iv) := by
    show (do let rv ← hkdfExpandLabelSha256 P sec INITIAL_VECTOR_LABEL [] 12; pure (some rv)) = _
    rw [h3]; rfl
  have e3 : (TLS13_AES_128_GCM_SHA256 P).getKey sec KEY_LABEL = .ok key := h4
  have e0 : (TLS13_AES_128_GCM_SHA256 P).hkdfExpandLabel ((TLS13_AES_128_GCM_SHA256 P).hkdfExtract (some v.getKdfInitialSalt) cid)
    (if srv then SERVER_INITIAL_SECRET_LABEL else CLIENT_INITIAL_SECRET_LABEL) [] 32 = .ok sec := h1
  unfold Secrets.fromInitial
  dsimp only
  rw [e0, Out.ok_bind]
  unfold Secrets.fromSecret
  rw [e1, Out.ok_bind, e2, Out.ok_bind, e3]
  rfl
theorem initialKeys_lens {P : Prims} (hP : PrimLaws P) {srv cid k} (h : InitialKeys P srv cid k) : KeyLens k := by
  obtain ⟨sec, _, ⟨i1, _, h1⟩, ⟨i2, _, h2⟩, ⟨i3, _, h3⟩⟩ := h
  obtain ⟨o1, e1, l1⟩ := hP.expand sec i1 16 (by decide)
  obtain ⟨o2, e2, l2⟩ := hP.expand sec i2 12 (by decide)
  obtain ⟨o3, e3, l3⟩ := hP.expand sec i3 16 (by decide)
  rw [h1] at e1; rw [h2] at e2; rw [h3] at e3
  cases e1; cases e2; cases e3
  exact ⟨l1, l2, l3⟩
theorem expandLabel_unique {P : Prims} {secret : Bytes} {s : String} {n : Nat} {a b : Bytes} (h : ExpandLabel P secret s n a)
    (h' : ExpandLabel P secret s n b) : a = b := by
  obtain ⟨i, hi, h⟩ := h
  obtain ⟨j, hj, h'⟩ := h'
  rw [isHkdfLabel_unique hi hj] at h
  rw [h] at h'
  injection h'
theorem initialKeys_unique {P : Prims} {srv : Bool} {cid : Bytes} {k k' : Keys} (h : InitialKeys P srv cid k) (h' : InitialKeys P srv cid k') :
    k = k' := by
  obtain ⟨s, hs, h1, h2, h3⟩ := h
  obtain ⟨s', hs', g1, g2, g3⟩ := h'
  have := expandLabel_unique hs hs'
  subst this
  cases k; cases k'
  have a := expandLabel_unique h1 g1
  have b := expandLabel_unique h2 g2
  have c := expandLabel_unique h3 g3
  simp only at a b c
  rw [a, b, c]

/-- `Connection::new` in terms of the RFC keys. -/
theorem new_ok' {P srv v d n c} (h : Connection.new P srv v d n = .ok c) :
    ∃ cid kl kr, d.toVarBytes n = .ok cid ∧ InitialKeys P srv cid kl ∧ InitialKeys P (!srv) cid kr ∧
      c = { version := v
            initialPnInfo := { PnInfo.new with localTlsSecrets := some (secretsOf P kl), remoteTlsSecrets := some (secretsOf P kr) }
            handshakePnInfo := PnInfo.new, applicationPnInfo := PnInfo.new, dcid := (d, n), scid := none } := by
  obtain ⟨cid, ss, cs, hb, hs, hc, rfl⟩ := new_ok h
  obtain ⟨ks, rfl, hks⟩ := fromInitial_ok hs
  obtain ⟨kc, rfl, hkc⟩ := fromInitial_ok hc
  cases srv
  · exact ⟨cid, kc, ks, hb, hkc, hks, rfl⟩
  · exact ⟨cid, ks, kc, hb, hks, hkc, rfl⟩
theorem new_total (P : Prims) (hP : PrimLaws P) (srv : Bool) (v : Version) (d : U160) (n : Nat) (hn : n ≤ 20) :
    ∃ c, Connection.new P srv v d n = .ok c := by
  obtain ⟨cid, hcid, _⟩ := toVarBytes_spec d n hn
  obtain ⟨ks, hks, _⟩ := fromInitial_total P hP true cid v
  obtain ⟨kc, hkc, _⟩ := fromInitial_total P hP false cid v
  unfold Connection.new
  simp only [hcid, Out.ok_bind, hks, hkc]
  cases srv <;> exact ⟨_, rfl⟩

end QuicSea
