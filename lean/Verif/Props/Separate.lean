import Verif.Props.Derive
import Verif.Props.Packet
/-
C140: which keys are the same (RFC 9001 sections 5.1 and 5.2: a key for every id, side and purpose).
-/
namespace Spec
open QuicSea

/-- What a key is for (RFC 9001 section 5.1). -/
inductive Purpose where
  | hp
  | iv
  | key
deriving DecidableEq
/-- The bytes that a connection holds for a purpose, in its Initial space: for what it sends, or for what it is sent. -/
def heldFor (c : Connection) (received : Bool) (u : Purpose) : Option Bytes :=
  (if received then c.initialPnInfo.remoteTlsSecrets else c.initialPnInfo.localTlsSecrets).bind fun s =>
    match u with
    | .hp => some s.hp
    | .iv => s.iv
    | .key => some s.key

/-- The label of RFC 9001 section 5.1 for a purpose, and how many bytes AES-128-GCM needs for it. -/
def Purpose.label : Purpose → String
  | .hp => "quic hp"
  | .iv => "quic iv"
  | .key => "quic key"
def Purpose.size : Purpose → Nat
  | .iv => 12
  | _ => 16
/-- The three steps of RFC 9001 sections 5.1 and 5.2 for a sending side, an id and a purpose: the secret of the id, that of the side, and the bytes for the purpose,
with the contexts of the two expansions. -/
structure Steps (P : Prims) (server : Bool) (cid : Bytes) (u : Purpose) where
  prk : Bytes
  info : Bytes
  secret : Bytes
  info' : Bytes
  out : Bytes
  extracted : prk = P.hkdfExtract (some initialSalt) cid
  side : IsHkdfLabel info 32 (ascii (if server then "server in" else "client in")) []
  expanded : P.hkdfExpand prk info 32 = some secret
  purpose : IsHkdfLabel info' u.size (ascii u.label) []
  expanded' : P.hkdfExpand secret info' u.size = some out
/-- In one of the steps two derivations give HKDF different inputs and get the same output. Some inputs of HKDF have the same output, since there are more inputs than
outputs; said here is that two inputs have it which occur in these two derivations at the same step. -/
def Collide {P : Prims} {w w' : Bool} {a a' : Bytes} {u u' : Purpose} (x : Steps P w a u) (y : Steps P w' a' u') : Prop :=
  (a ≠ a' ∧ x.prk = y.prk) ∨ ((x.prk, x.info) ≠ (y.prk, y.info) ∧ x.secret = y.secret) ∨
  ((x.secret, x.info') ≠ (y.secret, y.info') ∧ u.size = u'.size ∧ x.out = y.out)

/-- C140 for given algorithms: whatever happens on two connections, they hold the same bytes for purposes exactly if id, sending side and purpose are the same, but
for collisions. -/
def C140For (P : Prims) : Prop :=
  ∀ (bp bp' : Profile) (srv srv' : Bool) (v v' : Version) (d d' : U160) (n n' : Nat) (c c' : Connection) (ops ops' : List ConnOp),
    Connection.new P srv v d n = .ok c → Connection.new P srv' v' d' n' = .ok c' → ∀ (r r' : Bool) (u u' : Purpose),
    ((n = n' ∧ cidVal d % 256 ^ n = cidVal d' % 256 ^ n' ∧ (srv == r) = (srv' == r') ∧ u = u') →
      ∃ b, heldFor (c.run bp ops).2 r u = some b ∧ heldFor (c'.run bp' ops').2 r' u' = some b) ∧
    (heldFor (c.run bp ops).2 r u = heldFor (c'.run bp' ops').2 r' u' →
      (n = n' ∧ cidVal d % 256 ^ n = cidVal d' % 256 ^ n' ∧ (srv == r) = (srv' == r') ∧ u = u') ∨
      ∃ (a a' : Bytes) (x : Steps P (!(srv == r)) a u) (y : Steps P (!(srv' == r')) a' u'), a.length = n ∧ beNat a = cidVal d % 256 ^ n ∧ a'.length = n' ∧
        beNat a' = cidVal d' % 256 ^ n' ∧ Collide x y)
/-- C140 as a statement. -/
def C140Statement : Prop := ∀ P, PrimLaws P → C140For P
end Spec

namespace QuicSea
open Spec
variable {P : Prims}

/-- The bytes for a purpose. -/
def _root_.Spec.Keys.forPurpose (k : Keys) : Purpose → Bytes
  | .hp => k.hp
  | .iv => k.iv
  | .key => k.key

theorem heldFor_run {srv : Bool} {v : Version} {d : U160} {n : Nat} {c : Connection} (h : Connection.new P srv v d n = .ok c) (bp : Profile) (ops : List ConnOp) :
    ∃ cid, n ≤ 20 ∧ cid.length = n ∧ beNat cid = cidVal d % 256 ^ n ∧ ∀ r, ∃ k, InitialKeys P (!(srv == r)) cid k ∧ ∀ u, heldFor (c.run bp ops).2 r u = some (k.forPurpose u) := by
  obtain ⟨cid, kl, kr, h1, h2, h3, hc⟩ := new_ok' h
  have hn : n ≤ 20 := by
    refine Nat.not_lt.mp fun q => ?_
    unfold U160.toVarBytes at h1
    rw [if_pos (by omega)] at h1
    cases h1
  obtain ⟨x, hx, hl, hv⟩ := toVarBytes_spec d n hn
  cases h1.symm.trans hx
  refine ⟨cid, hn, hl, hv, fun r => ?_⟩
  cases r
  · refine ⟨kl, by cases srv <;> exact h2, fun u => ?_⟩
    have e : (c.run bp ops).2.initialPnInfo.localTlsSecrets = some (secretsOf P kl) := (run_acks bp ops c .initial).2.2.1.trans (by rw [hc]; rfl)
    unfold heldFor
    rw [if_neg Bool.false_ne_true]
    rw [e]
    cases u <;> rfl
  · refine ⟨kr, by cases srv <;> exact h3, fun u => ?_⟩
    have e : (c.run bp ops).2.initialPnInfo.remoteTlsSecrets = some (secretsOf P kr) := (run_acks bp ops c .initial).2.2.2.trans (by rw [hc]; rfl)
    unfold heldFor
    rw [if_pos rfl]
    rw [e]
    cases u <;> rfl

theorem expandLabel_len (hP : PrimLaws P) {s : Bytes} {l : String} {n : Nat} {o : Bytes} (hn : n ≤ 255 * 32) (h : ExpandLabel P s l n o) : o.length = n := by
  obtain ⟨i, -, e⟩ := h
  obtain ⟨o', e', hl⟩ := hP.expand s i n hn
  cases e.symm.trans e'
  exact hl

theorem derived_label {s : Bytes} {k : Keys} (h : DerivedKeys P s k) (u : Purpose) : ExpandLabel P s u.label u.size (k.forPurpose u) := by
  cases u
  · exact h.1
  · exact h.2.1
  · exact h.2.2

/-- Keys that are the same are for the same side, id and purpose, or there is a collision on the way to them. -/
theorem initialKeys_separate (hP : PrimLaws P) {w w' : Bool} {a a' : Bytes} {k k' : Keys} (h : InitialKeys P w a k)
    (h' : InitialKeys P w' a' k') {u u' : Purpose} (e : k.forPurpose u = k'.forPurpose u') :
    (a = a' ∧ w = w' ∧ u = u') ∨ ∃ (x : Steps P w a u) (y : Steps P w' a' u'), Collide x y := by
  obtain ⟨s, ⟨i, hi, h1⟩, h2⟩ := h
  obtain ⟨s', ⟨i', hi', g1⟩, g2⟩ := h'
  have f := derived_label h2 u
  have f' := derived_label g2 u'
  have hz : u.size ≤ 255 * 32 ∧ u'.size ≤ 255 * 32 := by cases u <;> cases u' <;> decide
  have l := expandLabel_len hP hz.1 f
  have l' := expandLabel_len hP hz.2 f'
  rw [e] at l
  have ez : u.size = u'.size := l.symm.trans l'
  obtain ⟨j, hj, f⟩ := f
  obtain ⟨j', hj', f'⟩ := f'
  by_cases q : a = a' ∧ w = w' ∧ u = u'
  · exact .inl q
  refine .inr ⟨⟨_, i, s, j, _, rfl, hi, h1, hj, f⟩, ⟨_, i', s', j', _, rfl, hi', g1, hj', f'⟩, ?_⟩
  by_cases q3 : (s, j) = (s', j')
  · injection q3 with q3 q4
    have hu : u = u' := by
      have := (isHkdfLabel_inj hj hj' q4).2.1
      revert this
      cases u <;> cases u' <;> decide +kernel
    by_cases q2 : (P.hkdfExtract (some initialSalt) a, i) = (P.hkdfExtract (some initialSalt) a', i')
    · injection q2 with q1 q2
      have hw : w = w' := by
        have := (isHkdfLabel_inj hi hi' q2).2.1
        revert this
        cases w <;> cases w' <;> decide +kernel
      exact .inl ⟨fun qa => q ⟨qa, hw, hu⟩, q1⟩
    · exact .inr (.inl ⟨q2, q3⟩)
  · exact .inr (.inr ⟨q3, ez, e⟩)

/-- **C140**: a key for every id, side and purpose, and one only. -/
theorem C140_all : C140Statement := by
  intro P hP bp bp' srv srv' v v' d d' n n' c c' ops ops' h h' r r' u u'
  obtain ⟨a, hn, hl, hv, H⟩ := heldFor_run h bp ops
  obtain ⟨a', hn', hl', hv', H'⟩ := heldFor_run h' bp' ops'
  obtain ⟨k, hk, e⟩ := H r
  obtain ⟨k', hk', e'⟩ := H' r'
  rw [e, e']
  constructor
  · rintro ⟨e1, e2, e3, rfl⟩
    have : a = a' := beNat_inj (by omega) (by omega)
    subst this
    rw [e3] at hk
    cases initialKeys_unique hk hk'
    exact ⟨_, rfl, rfl⟩
  · intro q
    injection q with q
    rcases initialKeys_separate hP hk hk' q with ⟨rfl, q2, q3⟩ | ⟨x, y, q⟩
    · refine .inl ⟨by omega, by omega, ?_, q3⟩
      revert q2
      cases (srv == r) <;> cases (srv' == r') <;> simp
    · exact .inr ⟨a, a', x, y, hl, hv, hl', hv', q⟩

/-- **C140**: the two directions of a connection differ in everything, unless the secrets of the two sides collide, or what is made of them. -/
theorem C140_directions (P : Prims) (hP : PrimLaws P) (bp : Profile) (srv : Bool) (v : Version) (d : U160) (n : Nat) (c : Connection)
    (ops : List ConnOp) (h : Connection.new P srv v d n = .ok c) (u u' : Purpose) (e : heldFor (c.run bp ops).2 false u = heldFor (c.run bp ops).2 true u') :
    ∃ (a : Bytes) (x : Steps P srv a u) (y : Steps P (!srv) a u'), a.length = n ∧ beNat a = cidVal d % 256 ^ n ∧ u.size = u'.size ∧ x.info ≠ y.info ∧
      (x.secret = y.secret ∨ x.secret ≠ y.secret ∧ x.out = y.out) := by
  obtain ⟨a, hn, hl, hv, H⟩ := heldFor_run h bp ops
  obtain ⟨k, hk, e1⟩ := H false
  obtain ⟨k', hk', e2⟩ := H true
  rw [e1, e2] at e
  injection e with e
  have w : (!(srv == false)) = srv := by cases srv <;> rfl
  have w' : (!(srv == true)) = !srv := by cases srv <;> rfl
  rw [w] at hk
  rw [w'] at hk'
  obtain ⟨s, ⟨i, hi, h1⟩, h2⟩ := hk
  obtain ⟨s', ⟨i', hi', g1⟩, g2⟩ := hk'
  obtain ⟨j, hj, f⟩ := derived_label h2 u
  obtain ⟨j', hj', f'⟩ := derived_label g2 u'
  have hz : u.size ≤ 255 * 32 ∧ u'.size ≤ 255 * 32 := by cases u <;> cases u' <;> decide
  have l := expandLabel_len hP hz.1 (derived_label h2 u)
  have l' := expandLabel_len hP hz.2 (derived_label g2 u')
  rw [e] at l
  refine ⟨a, ⟨_, i, s, j, _, rfl, hi, h1, hj, f⟩, ⟨_, i', s', j', _, rfl, hi', g1, hj', f'⟩, hl, hv, l.symm.trans l', ?_, ?_⟩
  · intro q
    have := (isHkdfLabel_inj hi hi' q).2.1
    revert this
    cases srv <;> decide +kernel
  · by_cases q : s = s'
    · exact .inl q
    · exact .inr ⟨q, e⟩

/-! A client and a server for one id, after packets have been built: what one sends with is what the other receives with, and not what it sends with. In the toy
world ids with the same bytes in another order collide, and connections with such ids have the same keys: collisions cannot be left out of the claim. -/
example : (∃ b, heldFor (exClient.run .debug [.nextPn .initial]).2 false .key = some b ∧ heldFor (exConn.run .release []).2 true .key = some b) ∧
    heldFor (exClient.run .debug [.nextPn .initial]).2 false .key ≠ heldFor (exConn.run .release []).2 false .key :=
  ⟨(C140_all toy toy_laws .debug .release false true .v1 .v1 _ _ 8 8 exClient exConn [.nextPn .initial] [] exClient_new exConn_new false true .key .key).1
    ⟨rfl, rfl, rfl, rfl⟩, by decide +kernel⟩
example : ∃ (a a' : Bytes) (x : Steps toy true a .key) (y : Steps toy true a' .key), beNat a = 0x0102030405060708 ∧ beNat a' = 0x0201030405060708 ∧ Collide x y := by
  obtain ⟨c', h'⟩ := new_total toy toy_laws true .v1 ⟨0, 0x0201030405060708⟩ 8 (by decide)
  have q : ∀ c', Connection.new toy true .v1 ⟨0, 0x0201030405060708⟩ 8 = .ok c' → heldFor exConn false .key = heldFor c' false .key := by
    have t : (match Connection.new toy true .v1 ⟨0, 0x0201030405060708⟩ 8 with | .ok c' => decide (heldFor exConn false .key = heldFor c' false .key) | _ => false) = true := by
      decide +kernel
    intro c' h
    rw [h] at t
    exact of_decide_eq_true t
  rcases (C140_all toy toy_laws .debug .debug true true .v1 .v1 _ _ 8 8 exConn c' [] [] exConn_new h' false false .key .key).2 (q c' h') with ⟨-, q, -⟩ | ⟨a, a', x, y, -, h2, -, h4, h5⟩
  · exact absurd q (by decide +kernel)
  · exact ⟨a, a', x, y, by rw [h2]; decide +kernel, by rw [h4]; decide +kernel, h5⟩

end QuicSea
