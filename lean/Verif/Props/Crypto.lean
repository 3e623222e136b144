import Verif.Proofs.Crypto
import Verif.Props.PacketNumber
/-
C30, C39: Initial keys and HKDF labels.
-/
namespace QuicSea
open Spec

/-! ### C30 -/

/-- **C30.** For every connection id of 0 to 20 bytes both peers can create their connection; each side's send keys are the RFC 9001
Initial keys of that side and are the other side's receive keys. -/
theorem C30_matching_keys (P : Prims) (hP : PrimLaws P) (v : Version) (d : U160) (n : Nat) (hn : n ≤ 20) :
    ∃ client server cid kc ks, Connection.new P false v d n = .ok client ∧ Connection.new P true v d n = .ok server ∧
      cid.length = n ∧ beNat cid = cidVal d % 256 ^ n ∧
      InitialKeys P false cid kc ∧ InitialKeys P true cid ks ∧
      client.localSecrets .initial = .ok (secretsOf P kc) ∧ server.remoteSecrets .initial = .ok (secretsOf P kc) ∧
      server.localSecrets .initial = .ok (secretsOf P ks) ∧ client.remoteSecrets .initial = .ok (secretsOf P ks) := by
  obtain ⟨client, hc⟩ := new_total P hP false v d n hn
  obtain ⟨server, hs⟩ := new_total P hP true v d n hn
  obtain ⟨cid, kl, kr, h1, h2, h3, rfl⟩ := new_ok' hc
  obtain ⟨cid', kl', kr', g1, g2, g3, rfl⟩ := new_ok' hs
  rw [h1] at g1
  cases g1
  have e1 := initialKeys_unique h2 g3
  have e2 := initialKeys_unique h3 g2
  subst e1 e2
  obtain ⟨x, hx, hl, hv⟩ := toVarBytes_spec d n hn
  rw [h1] at hx
  cases hx
  exact ⟨_, _, cid, kl, kr, hc, hs, hl, hv, h2, h3, rfl, rfl, rfl, rfl⟩

/-- The agreement survives any histories of operations on both connections. -/
theorem C30_agreement_kept (P : Prims) (bp bp' : Profile) (v : Version) (d : U160) (n : Nat) (client server : Connection)
    (hc : Connection.new P false v d n = .ok client) (hs : Connection.new P true v d n = .ok server) (ops ops' : List ConnOp) :
    ((client.run bp ops).2).localSecrets .initial = ((server.run bp' ops').2).remoteSecrets .initial ∧
    ((server.run bp' ops').2).localSecrets .initial = ((client.run bp ops).2).remoteSecrets .initial := by
  obtain ⟨cid, kl, kr, h1, h2, h3, rfl⟩ := new_ok' hc
  obtain ⟨cid', kl', kr', g1, g2, g3, rfl⟩ := new_ok' hs
  rw [h1] at g1
  cases g1
  have e1 := initialKeys_unique h2 g3
  have e2 := initialKeys_unique h3 g2
  subst e1 e2
  unfold Connection.localSecrets Connection.remoteSecrets
  rw [(run_acks bp ops _ .initial).2.2.1, (run_acks bp ops _ .initial).2.2.2, (run_acks bp' ops' _ .initial).2.2.1,
    (run_acks bp' ops' _ .initial).2.2.2]
  exact ⟨rfl, rfl⟩

/-- The two directions expand the same secret with different inputs. -/
theorem C30_directions_differ (a b : Bytes) (ha : IsHkdfLabel a 32 (ascii "client in") []) (hb : IsHkdfLabel b 32 (ascii "server in") []) :
    a ≠ b := by
  intro e
  have := (isHkdfLabel_inj ha hb e).2.1
  revert this
  decide +kernel

/-- Over the toy instance the two directions really have different keys. -/
example : ∃ l r, exConn.localSecrets .initial = .ok l ∧ exConn.remoteSecrets .initial = .ok r ∧ l.key ≠ r.key := by
  obtain ⟨cid, kl, kr, h1, h2, h3, e⟩ := new_ok' exConn_new
  have hk : ∀ l r, exConn.localSecrets .initial = .ok l → exConn.remoteSecrets .initial = .ok r →
      (match exConn.localSecrets .initial, exConn.remoteSecrets .initial with
        | .ok a, .ok b => decide (a.key ≠ b.key)
        | _, _ => false) = true → l.key ≠ r.key := by
    intro l r hl hr h
    rw [hl, hr] at h
    simpa using h
  exact ⟨secretsOf toy kl, secretsOf toy kr, by rw [e]; rfl, by rw [e]; rfl,
    hk _ _ (by rw [e]; rfl) (by rw [e]; rfl) (by decide +kernel)⟩

/-! ### C39 -/

/-- **C39.** The label structure is the one of RFC 8446 exactly when its parts fit their length fields; otherwise it is an error. -/
theorem C39_label (n : Nat) (label context : Bytes) :
    if n ≤ 65535 ∧ context.length ≤ 255 ∧ 6 + label.length ≤ 255 then
      ∃ info, getHkdfLabelInfo n label context = .ok info ∧ IsHkdfLabel info.flatten n label context
    else (getHkdfLabelInfo n label context).isErr = true := by
  split
  · rename_i h
    obtain ⟨info, hi⟩ := getHkdfLabelInfo_fits n label context h.1 h.2.1 h.2.2
    exact ⟨info, hi, (getHkdfLabelInfo_ok hi).2.2.2⟩
  · rename_i h
    cases hr : getHkdfLabelInfo n label context with
    | ok info => have := getHkdfLabelInfo_ok hr; exact absurd ⟨this.1, this.2.1, this.2.2.1⟩ h
    | err e => rfl
    | panic w =>
      unfold getHkdfLabelInfo at hr
      split at hr
      · cases hr
      · split at hr
        · cases hr
        · dsimp only at hr
          split at hr <;> cases hr

/-- The structure determines length, label and context: distinct uses never collide. -/
theorem C39_injective (n m : Nat) (l l' c c' : Bytes) (i i' : List Bytes) (h : getHkdfLabelInfo n l c = .ok i)
    (h' : getHkdfLabelInfo m l' c' = .ok i') (e : i.flatten = i'.flatten) : n = m ∧ l = l' ∧ c = c' :=
  isHkdfLabel_inj (getHkdfLabelInfo_ok h).2.2.2 (getHkdfLabelInfo_ok h').2.2.2 e

/-- `hkdf_expand_label` expands exactly that structure. -/
theorem C39_expand (P : Prims) (secret label context out : Bytes) (n : Nat) (h : hkdfExpandLabelSha256 P secret label context n = .ok out) :
    P.fromPrkOk secret = true ∧ ∃ info, IsHkdfLabel info n label context ∧ P.hkdfExpand secret info n = some out := by
  unfold hkdfExpandLabelSha256 at h
  split at h
  · rename_i hp
    obtain ⟨info, hi, h⟩ := Out.bind_eq_ok h
    split at h
    · cases h
      exact ⟨hp, info.flatten, (getHkdfLabelInfo_ok hi).2.2.2, by assumption⟩
    · cases h
  · cases h

example : (getHkdfLabelInfo 16 (ascii "quic key") []) = .ok [[0x00, 0x10], [0x0e], ascii "tls13 quic key", [0x00], []] := by decide +kernel
example : (getHkdfLabelInfo 70000 (ascii "quic key") []).isErr = true := by decide +kernel

end QuicSea
