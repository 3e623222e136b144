import Verif.Props.Separate
import Verif.Props.Authentic
import Verif.Props.Every
/-
C143: who accepts an Initial packet (RFC 9001 section 5.2: the keys of a connection id and a side).
-/
namespace Spec
open QuicSea

/-- Bytes at the end of `out` were sealed with one key, bytes at the end of `out'` can be opened with another one. With an AEAD nobody knows how to find such bytes unless
they know the second key and choose the bytes for it. -/
def CrossOpened (P : Prims) (key key' : Bytes) (out out' : Bytes) : Prop :=
  key ≠ key' ∧ (∃ nonce ad plain ct tag, P.gcmSeal key nonce ad plain = some (ct, tag) ∧ ct ++ tag <:+ out) ∧
  ∃ nonce ad plain ct tag, tag.length = 16 ∧ P.gcmOpen key' nonce ad ct tag = some plain ∧ ct ++ tag <:+ out'

/-- C143 for given algorithms: a packet that one connection writes and another takes from the beginning of a stream is an Initial packet for the other one, too, and they have the same id and
different sides; or the derivations of their keys collide; or a key opens what another has sealed. -/
def C143For (P : Prims) : Prop :=
  ∀ (bp bp' : Profile) (srv srv' : Bool) (v v' : Version) (d d' : U160) (n n' : Nat) (c c' : Connection) (ops ops' : List ConnOp),
    Connection.new P srv v d n = .ok c → cidVal d < 256 ^ n → Connection.new P srv' v' d' n' = .ok c' →
    ∀ (p : PacketInitial) (payload out : Bytes) (q : Packet) (s s' : Stream), SentIn bp c ops p payload out →
    decodeNextPacket bp' (c'.run bp' ops').2 (makeResultStream out ++ s) = (.ok q, s') →
    (∃ q', q = .initial q') ∧
    ((n = n' ∧ cidVal d = cidVal d' % 256 ^ n' ∧ srv' = !srv) ∨
     (∃ (a a' : Bytes) (x : Steps P srv a .key) (y : Steps P (!srv') a' .key), a.length = n ∧ beNat a = cidVal d ∧ a'.length = n' ∧ beNat a' = cidVal d' % 256 ^ n' ∧ Collide x y) ∨
     ∃ key key' out', heldFor c false .key = some key ∧ heldFor c' true .key = some key' ∧ makeResultStream out ++ s = makeResultStream out' ++ s' ∧ CrossOpened P key key' out out')
/-- C143 as a statement. -/
def C143Statement : Prop := ∀ P, PrimLaws P → C143For P
end Spec

namespace QuicSea
open Spec
variable {P : Prims}

/-- The keys of a connection, as derived from its id. -/
theorem new_directions {srv : Bool} {v : Version} {d : U160} {n : Nat} {c : Connection} (h : Connection.new P srv v d n = .ok c) :
    ∃ cid kl kr, n ≤ 20 ∧ cid.length = n ∧ beNat cid = cidVal d % 256 ^ n ∧ InitialKeys P srv cid kl ∧ InitialKeys P (!srv) cid kr ∧
      heldFor c false .key = some kl.key ∧ heldFor c true .key = some kr.key ∧
      ∀ bp ops, (c.run bp ops).2.remoteSecrets .initial = .ok (secretsOf P kr) := by
  obtain ⟨cid, kl, kr, h1, h2, h3, hc⟩ := new_ok' h
  have hn : n ≤ 20 := by
    refine Nat.not_lt.mp fun q => ?_
    unfold U160.toVarBytes at h1
    rw [if_pos (by omega)] at h1
    cases h1
  obtain ⟨x, hx, hl, hv⟩ := toVarBytes_spec d n hn
  cases h1.symm.trans hx
  refine ⟨cid, kl, kr, hn, hl, hv, h2, h3, by rw [hc]; rfl, by rw [hc]; rfl, fun bp ops => ?_⟩
  rw [(run_secrets bp ops c .initial).2, hc]
  rfl

/-- **C143**. -/
theorem C143_all : C143Statement := by
  intro P hP bp bp' srv srv' v v' d d' n n' c c' ops ops' h hd h' p payload out q s s' hs hq
  obtain ⟨a, kl, -, hn, hl, hv, i1, -, e1, -, -⟩ := new_directions h
  obtain ⟨a', -, kr', hn', hl', hv', -, i2, -, e2, hk'⟩ := new_directions h'
  obtain ⟨cr, hr⟩ := new_total P hP (!srv) v d n hn
  obtain ⟨b, -, kr, -, hl2, hv2, -, i3, -, -, hk⟩ := new_directions hr
  rw [Bool.not_not] at i3
  cases (beNat_inj (by omega) (by omega) : a = b)
  cases initialKeys_unique i1 i3
  obtain ⟨w, -, hp, nonce, ad, ct, tag, sl⟩ := C97_sent_sealed (bp := bp) (bp' := bp) hP hn hd h hr (hk bp []) hs
  have hq1 : ∃ q', q = .initial q' := by
    obtain ⟨hb, tl, lb, w1, w2, w3, w4, w5, nb, ct, tag, m0, m1, m2, m3, m4, r, b1, b2, b3, b4, b5, b6⟩ := w
    rw [show out = (p.header.headerByte ^^^ ((⟨m0, m1, m2, m3, m4⟩ : Mask).m0 &&& 0x0f)) ::
      (hb ++ (tl ++ p.token ++ lb ++ p.packetNumberBytes.zipWith (· ^^^ ·) [m1, m2, m3, m4] ++ ct ++ tag)) by rw [b6]; simp only [List.append_assoc, List.cons_append, List.nil_append],
      decodeNext_wire_initial w1 w2] at hq
    obtain ⟨x, t, -, hq⟩ := Rd.bind_eq_ok hq
    cases hq
    exact ⟨_, rfl⟩
  refine ⟨hq1, ?_⟩
  obtain ⟨q', rfl⟩ := hq1
  rw [Nat.mod_eq_of_lt hd] at hv
  by_cases q : kl.key = kr'.key
  · rcases initialKeys_separate hP i1 i2 (u := .key) (u' := .key) q with ⟨rfl, q2, -⟩ | ⟨x, y, q⟩
    · exact .inl ⟨by omega, by omega, by rw [q2, Bool.not_not]⟩
    · exact .inr (.inl ⟨a, a', x, y, hl, hv, hl', hv', q⟩)
  · refine .inr (.inr ⟨kl.key, kr'.key, ?_⟩)
    have rr : Connection.Reachable P bp' (c'.run bp' ops').2 := ⟨_, v', d', n', c', ops', h', rfl⟩
    obtain ⟨out', hb, tl, lb, pl, skip, L, g1, -, -, -, -, -, g7, -⟩ := initial_opened (hk' bp' ops') (reachable_iv hP rr (hk' bp' ops')).2.1 hq
    obtain ⟨nb, ct', tag', m0, m1, m2, m3, m4, r, pnM, -, -, l16, -, -, -, -, ho, ho'⟩ := g7
    obtain ⟨hb', tl', lb', nb', m0', m1', m2', m3', m4', r', -, -, -, -, -, -, -, -, -, sl, -, so⟩ := sl
    refine ⟨out', e1, e2, g1, q, ⟨_, _, _, ct, tag, sl, ?_⟩, ⟨_, _, _, ct', tag', l16, ho, ?_⟩⟩
    · rw [so, List.append_assoc _ ct tag]
      exact List.suffix_append _ _
    · rw [ho', List.append_assoc _ ct' tag']
      exact List.suffix_append _ _

/-- **C143**, of a connection's own packets that come back to it, at any time: it takes none of them, but for a collision or an opening with another key. -/
theorem C143_own (P : Prims) (hP : PrimLaws P) (bp : Profile) (srv : Bool) (v : Version) (d : U160) (n : Nat) (c : Connection) (ops ops' : List ConnOp)
    (h : Connection.new P srv v d n = .ok c) (hd : cidVal d < 256 ^ n) (p : PacketInitial) (payload out : Bytes) (q : Packet) (s s' : Stream) (hs : SentIn bp c ops p payload out)
    (hq : decodeNextPacket bp (c.run bp ops').2 (makeResultStream out ++ s) = (.ok q, s')) :
    (∃ (a : Bytes) (x : Steps P srv a .key) (y : Steps P (!srv) a .key), a.length = n ∧ beNat a = cidVal d ∧ Collide x y) ∨
     ∃ key key' out', heldFor c false .key = some key ∧ heldFor c true .key = some key' ∧ makeResultStream out ++ s = makeResultStream out' ++ s' ∧ CrossOpened P key key' out out' := by
  rcases (C143_all P hP bp bp srv srv v v d d n n c c ops ops' h hd h p payload out q s s' hs hq).2 with ⟨-, -, q⟩ | ⟨a, a', x, y, h1, h2, h3, h4, q⟩ | q
  · exact absurd q (by cases srv <;> decide)
  · rw [Nat.mod_eq_of_lt hd] at h4
    cases (beNat_inj (by omega) (by omega) : a = a')
    exact .inl ⟨a, x, y, h1, h2, q⟩
  · exact .inr q

/-- **C143**, the converse: the connection for the same id and the other side takes it, at any time, if the payload can be read. -/
theorem C143_peer (P : Prims) (hP : PrimLaws P) (bp bp' : Profile) (srv : Bool) (v v' : Version) (d d' : U160) (n : Nat) (c c' : Connection) (ops ops' : List ConnOp)
    (h : Connection.new P srv v d n = .ok c) (hd : cidVal d < 256 ^ n) (h' : Connection.new P (!srv) v' d' n = .ok c') (e : cidVal d = cidVal d' % 256 ^ n)
    (p : PacketInitial) (payload out : Bytes) (fs : List Frame) (s : Stream) (hs : SentIn bp c ops p payload out) (hf : (deserializeFrames (makeResultStream payload)).1 = .ok fs) :
    decodeNextPacket bp' (c'.run bp' ops').2 (makeResultStream out ++ s) = (.ok (.initial { p with packetPayload := fs }), s) := by
  obtain ⟨a, kl, -, hn, hl, hv, i1, -, -, -, -⟩ := new_directions h
  obtain ⟨a', -, kr', -, hl', hv', -, i2, -, -, hk'⟩ := new_directions h'
  rw [Bool.not_not] at i2
  rw [Nat.mod_eq_of_lt hd] at hv
  cases (beNat_inj (by omega) (by omega) : a = a')
  cases initialKeys_unique i1 i2
  have kl' := initialKeys_lens hP i1
  obtain ⟨pre, gs, token, post, l, m, -, s1, s2, s3, s4, s5, -, s6⟩ := hs
  obtain ⟨cr, hr⟩ := new_total P hP (!srv) v d n hn
  obtain ⟨b, -, kr, -, hl2, hv2, -, i3, -, -, hk⟩ := new_directions hr
  obtain ⟨hc, -, a1, -, -, -⟩ := peers_facts hP (bp := bp) (bp' := bp) (cs := (c.run bp pre).2) (cr := (cr.run bp []).2)
    ⟨srv, v, d, n, c, cr, pre, [], hn, hd, h, hr, rfl, rfl⟩ s1
  have hloc : (c.run bp l).2.localSecrets .initial = .ok (secretsOf P kl) := by
    obtain ⟨cid, kl2, kr2, g1, g2, g3, hc2⟩ := new_ok' h
    obtain ⟨x, hx, gl, gv⟩ := toVarBytes_spec d n hn
    cases g1.symm.trans hx
    rw [Nat.mod_eq_of_lt hd] at gv
    cases (beNat_inj (by omega) (by omega) : a = cid)
    cases initialKeys_unique i1 g2
    rw [(run_secrets bp l c .initial).1, hc2]
    rfl
  obtain ⟨out', o1, o2, o3, o4, o5, -, -⟩ := built_initial hP (c' := (c.run bp l).2) hloc kl' hc a1 s2 s3 s4 s5
  cases s6.symm.trans o1
  have a2 : ((c'.run bp' ops').2.pnInfo .initial).largestRemoteAck = none := by
    rw [(run_acks bp' ops' c' .initial).2.1]
    obtain ⟨_, _, _, -, -, -, hc2⟩ := new_ok' h'
    rw [hc2]
    rfl
  exact decodeNext_initial_reads hP (hk' bp' ops') kl'.2.1 o5 o2 o3 (reconstruct_four (by omega) o4 a2) hf s

/-! Whatever the algorithms, a client sends a packet, and the server for its id takes it, also after packets of its own. In the toy world the client does not take it, after it has built more. -/
theorem any_sent (hP : PrimLaws P) : ∃ cs cr p out, Connection.new P false .v1 anyId 8 = .ok cs ∧ Connection.new P true .v1 anyId 8 = .ok cr ∧
    SentIn .debug cs (exOps ++ [.buildInitial [.ping] none]) p [1] out := by
  obtain ⟨cs, cr, hs, hr, hp, hc⟩ := any_peers hP
  obtain ⟨p, hb⟩ := C31_builds P .debug false .v1 anyId 8 cs hs exOps (by decide) hc [.ping] none
  obtain ⟨-, -, out, ho, -⟩ := C31_envelope P hP .debug .debug _ _ hp hc [.ping] [.ping] none [1] (by decide +kernel) (by decide) (by decide) (by decide +kernel) p hb []
  exact ⟨cs, cr, p, out, hs, hr, exOps, [.ping], none, [], exOps, [.buildInitial [.ping] none], rfl, hc, hb, by decide +kernel, by decide, by decide, rfl, ho⟩
example (hP : PrimLaws P) : ∃ (cr : Connection) (p : PacketInitial) (out : Bytes), Connection.new P true .v1 anyId 8 = .ok cr ∧
    ∀ s, decodeNextPacket .release (cr.run .release [.nextPn .initial]).2 (makeResultStream out ++ s) = (.ok (.initial { p with packetPayload := [.ping] }), s) := by
  obtain ⟨cs, cr, p, out, hs, hr, h⟩ := any_sent hP
  exact ⟨cr, p, out, hr, fun s => C143_peer P hP .debug .release false .v1 .v1 anyId anyId 8 cs cr _ [.nextPn .initial] hs (by decide +kernel) hr (by decide +kernel) p [1] out [.ping] s h (by decide +kernel)⟩
example : (match PacketInitial.new .debug [.ping] none (exClient.run .debug exOps).2 with
    | (.ok p, c) => match p.serialize c with
      | .ok out => (decodeNextPacket .debug exConn (makeResultStream out)).1.isOk && !(decodeNextPacket .debug (c.run .debug [.nextPn .initial]).2 (makeResultStream out)).1.isOk
      | _ => false
    | _ => false) = true := by decide +kernel

end QuicSea
