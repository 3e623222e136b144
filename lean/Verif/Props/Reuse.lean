import Verif.Props.Separate
import Verif.Props.Every
/-
C141: no key and nonce for two packets, over all connections of a socket (RFC 9001 section 5.3; C27 is about one connection).
-/
namespace Spec
open QuicSea

/-- Key and nonce with which a connection seals the Initial packet with a number (RFC 9001 section 5.3). -/
def UsedFor (c : Connection) (pn : U64) (key nonce : Bytes) : Prop :=
  heldFor c false .key = some key ∧ ∃ iv nb, heldFor c false .iv = some iv ∧ nb.length = 8 ∧ beNat nb = pn.toNat ∧ nonce = rfcNonce iv nb

/-- C141 for given algorithms: when a socket has accepted two connections, what one of them seals is never sealed with key and nonce of something the other seals. -/
def C141For (P : Prims) : Prop :=
  ∀ (net net1 net2 : List NetEvent) (rng rng1 rng2 : List U64) (r1 r2 : Io U160) (k1 k2 : Sock), Sock.bind.accept P net rng = (r1, k1, net1, rng1) →
    k1.accept P net1 rng1 = (r2, k2, net2, rng2) → ∀ (i j : U160) (x y : StreamState), i ≠ j → k2.streams i = some x → k2.streams j = some y →
    ∀ (bp : Profile) (ops ops' : List ConnOp) (pn pn' : U64), pn ∈ issuedIn .initial (x.connection.run bp ops).1 → pn' ∈ issuedIn .initial (y.connection.run bp ops').1 →
    ∀ key nonce key' nonce', UsedFor x.connection pn key nonce → UsedFor y.connection pn' key' nonce' → (key, nonce) ≠ (key', nonce')
/-- C141 as a statement. -/
def C141Statement : Prop := ∀ P, PrimLaws P → C141For P
end Spec

namespace QuicSea
open Spec
variable {P : Prims} {bp : Profile}

theorem usedFor_new {srv : Bool} {v : Version} {d : U160} {n : Nat} {c : Connection} (h : Connection.new P srv v d n = .ok c) (pn : U64) :
    ∃ key nonce, ∀ s, UsedFor { c with scid := s } pn key nonce := by
  obtain ⟨cid, kl, kr, h1, h2, h3, rfl⟩ := new_ok' h
  exact ⟨kl.key, _, fun s => ⟨rfl, kl.iv, toBeBytes 8 pn, rfl, by simp, by rw [beNat_toBeBytes' 8 pn], rfl⟩⟩

/-- The first packet of a connection has number 1. -/
theorem first_built {srv : Bool} {v : Version} {d : U160} {n : Nat} {c : Connection} (h : Connection.new P srv v d n = .ok c) (bp : Profile) (fs : List Frame)
    (token : Option Bytes) (s : U160) : ∃ p, (PacketInitial.new bp fs token { c with scid := some (s, 8) }).1 = .ok p ∧ p.packetPayload = fs ∧ p.packetNumber = 1 := by
  obtain ⟨_, _, _, _, _, _, rfl⟩ := new_ok' h
  cases bp <;> exact ⟨_, rfl, rfl, rfl⟩

/-- **C141** is false whenever a client's first datagram comes twice, as it does when the client repeats it: two connections are opened (C50), both begin with
number 1, and whatever they send first they seal with the same key and the same nonce. -/
theorem C141_repeated (P : Prims) (hP : PrimLaws P) (k : Sock) (raw : Bytes) (addr : Nat) (id : Bytes) (id1 id2 : U64)
    (key1 key2 : U160) (net : List NetEvent) (rng : List U64) (ha : Addressed (seen raw addr).data .initial id)
    (hn : ∀ key, cidVal key = beNat id → k.streams key = none) (h1 : cidVal key1 = id1.toNat) (h2 : cidVal key2 = id2.toNat)
    (f1 : k.streams key1 = none) (f2 : k.streams key2 = none) (hne : key1 ≠ key2) (hid : beNat id ≠ id1.toNat) :
    ∃ (k1 k2 : Sock) (x y : StreamState) (key nonce : Bytes),
      k.accept P (.datagram raw addr :: .datagram raw addr :: net) (id1 :: id2 :: rng)
        = (.panic "not yet implemented", k1, .datagram raw addr :: net, id2 :: rng)
      ∧ k1.accept P (.datagram raw addr :: net) (id2 :: rng) = (.panic "not yet implemented", k2, net, rng)
      ∧ k2.streams key1 = some x ∧ k2.streams key2 = some y
      ∧ ∀ (bp : Profile) (fs fs' : List Frame) (token token' : Option Bytes), ∃ p p',
        (PacketInitial.new bp fs token x.connection).1 = .ok p ∧ (PacketInitial.new bp fs' token' y.connection).1 = .ok p' ∧
        p.packetPayload = fs ∧ p'.packetPayload = fs' ∧ UsedFor x.connection p.packetNumber key nonce ∧ UsedFor y.connection p'.packetNumber key nonce := by
  obtain ⟨k1, c1, d1, a1, v1, c1e, s1, -, o1⟩ := C48_registers_partial P hP k [] raw addr (.datagram raw addr :: net) id []
    id1 (id2 :: rng) (by simp) ha hn (by simp) key1 h1 f1
  obtain ⟨k2, c2, d2, a2, v2, c2e, s2, t2, -⟩ := C48_registers_partial P hP k1 [] raw addr net id []
    id2 rng (by simp) ha (fun key hk => o1 key (fun e => hid (by rw [← hk, e, h1])) (hn key hk)) (by simp) key2 h2
    (o1 key2 hne.symm f2)
  have hd : d1 = d2 := cidVal_inj (v1.trans v2.symm)
  rw [hd, c2e] at c1e
  cases c1e
  have t := t2 key1 _ s1
  simp only [forConn, List.map_nil, List.filter_nil, List.append_nil] at t
  obtain ⟨key, nonce, hu⟩ := usedFor_new c2e 1
  refine ⟨k1, k2, _, _, key, nonce, a1, a2, t, s2, ?_⟩
  intro bp fs fs' token token'
  obtain ⟨p, e1, e2, e3⟩ := first_built c2e bp fs token key1
  obtain ⟨p', e1', e2', e3'⟩ := first_built c2e bp fs' token' key2
  exact ⟨p, p', e1, e1', e2, e2', e3 ▸ hu _, e3' ▸ hu _⟩

theorem C141_false_any (P : Prims) (hP : PrimLaws P) : ¬ C141For P := by
  intro h
  obtain ⟨k1, k2, x, y, key, nonce, a1, a2, s1, s2, b⟩ := C141_repeated P hP Sock.bind exInitial.data 1 _ 7 8 (.ofU64 7) (.ofU64 8) [] [] exInitial_addressed
    (fun _ _ => rfl) (by decide +kernel) (by decide +kernel) rfl rfl (by decide +kernel) (by decide +kernel)
  obtain ⟨p, p', e1, e2, -, -, u1, u2⟩ := b .debug [.ping] [.padding] none none
  have i1 : p.packetNumber ∈ issuedIn .initial (x.connection.run .debug [.buildInitial [.ping] none]).1 := by
    show p.packetNumber ∈ issuedIn .initial [.initial (PacketInitial.new .debug [.ping] none x.connection).1]
    rw [e1]; exact List.mem_singleton.mpr rfl
  have i2 : p'.packetNumber ∈ issuedIn .initial (y.connection.run .debug [.buildInitial [.padding] none]).1 := by
    show p'.packetNumber ∈ issuedIn .initial [.initial (PacketInitial.new .debug [.padding] none y.connection).1]
    rw [e2]; exact List.mem_singleton.mpr rfl
  exact h _ _ _ _ _ _ _ _ _ _ a1 a2 _ _ x y (by decide +kernel) s1 s2 .debug _ _ _ _ i1 i2 key nonce key nonce u1 u2 rfl
theorem C141_false : ¬ C141Statement := fun h => C141_false_any toy toy_laws (h toy toy_laws)

/-- C141, the part that holds: connections for different ids, or of different sides, use one key only where derivations collide (C140). Missing: connections for one
id, for which it is false. -/
theorem C141_apart_partial (P : Prims) (hP : PrimLaws P) (bp bp' : Profile) (srv srv' : Bool) (v v' : Version) (d d' : U160) (n n' : Nat) (c c' : Connection)
    (ops ops' : List ConnOp) (h : Connection.new P srv v d n = .ok c) (h' : Connection.new P srv' v' d' n' = .ok c') (pn pn' : U64) (key nonce nonce' : Bytes)
    (hu : UsedFor (c.run bp ops).2 pn key nonce) (hu' : UsedFor (c'.run bp' ops').2 pn' key nonce') :
    (n = n' ∧ cidVal d % 256 ^ n = cidVal d' % 256 ^ n' ∧ srv = srv') ∨
    ∃ (a a' : Bytes) (x : Steps P srv a .key) (y : Steps P srv' a' .key), a.length = n ∧ beNat a = cidVal d % 256 ^ n ∧ a'.length = n' ∧
      beNat a' = cidVal d' % 256 ^ n' ∧ Collide x y := by
  rcases (C140_all P hP bp bp' srv srv' v v' d d' n n' c c' ops ops' h h' false false .key .key).2 (hu.1.trans hu'.1.symm) with ⟨h1, h2, h3, -⟩ | q
  · exact .inl ⟨h1, h2, by revert h3; cases srv <;> cases srv' <;> simp⟩
  · refine .inr ?_
    have w : ∀ b : Bool, (!(b == false)) = b := by intro b; cases b <;> rfl
    rw [w, w] at q
    exact q

/-- C141, exact for connections of one side for one id: they use the same keys, and the same nonces for the same numbers only. -/
theorem C141_same (P : Prims) (hP : PrimLaws P) (bp bp' : Profile) (srv : Bool) (v v' : Version) (d : U160) (n : Nat) (c c' : Connection)
    (ops ops' : List ConnOp) (h : Connection.new P srv v d n = .ok c) (h' : Connection.new P srv v' d n = .ok c') (pn pn' : U64) :
    (∃ key nonce, UsedFor (c.run bp ops).2 pn key nonce ∧ UsedFor (c'.run bp' ops').2 pn' key nonce) ↔ pn = pn' := by
  have same := fun u => (C140_all P hP bp bp' srv srv v v' d d n n c c' ops ops' h h' false false u u).1 ⟨rfl, rfl, rfl, rfl⟩
  obtain ⟨key, k1, k2⟩ := same .key
  obtain ⟨iv, v1, v2⟩ := same .iv
  have hl : 8 ≤ iv.length := by
    obtain ⟨cid, -, -, -, H⟩ := heldFor_run h bp ops
    obtain ⟨k, hk, e⟩ := H false
    have := (initialKeys_lens hP hk).2.1
    have e := (e .iv).symm.trans v1
    injection e with e
    rw [← e]
    show 8 ≤ k.iv.length
    omega
  have nb : ∀ (b : Bytes) (pn : U64), b.length = 8 → beNat b = pn.toNat → b = toBeBytes 8 pn := by
    intro b pn h1 h2
    exact beNat_inj (by simp [h1]) (by rw [h2, beNat_toBeBytes' 8 pn])
  constructor
  · rintro ⟨_, nonce, ⟨-, iv1, b1, e1, l1, n1, q1⟩, ⟨-, iv2, b2, e2, l2, n2, q2⟩⟩
    cases v1.symm.trans e1
    cases v2.symm.trans e2
    rw [nb b1 pn l1 n1] at q1
    rw [nb b2 pn' l2 n2] at q2
    refine Decidable.byContradiction fun hne => (C27_nonces_distinct iv pn pn' hl hne).1 (q1.symm.trans q2)
  · rintro rfl
    exact ⟨key, _, ⟨k1, iv, toBeBytes 8 pn, v1, by simp, by rw [beNat_toBeBytes' 8 pn], rfl⟩, ⟨k2, iv, toBeBytes 8 pn, v2, by simp, by rw [beNat_toBeBytes' 8 pn], rfl⟩⟩

/-! With the algorithms QUIC uses: two connections opened by one datagram that came twice. And two connections as in `C141_same`, after different histories. -/
theorem C141_false_real : ¬ C141For real := C141_false_any real real_laws
example : (∃ key nonce, UsedFor (exConn.run .debug [.nextPn .initial]).2 1 key nonce ∧ UsedFor (exConn.run .release []).2 1 key nonce) ∧
    ¬ ∃ key nonce, UsedFor (exConn.run .debug [.nextPn .initial]).2 1 key nonce ∧ UsedFor (exConn.run .release []).2 2 key nonce := by
  have h := C141_same toy toy_laws .debug .release true .v1 .v1 _ 8 exConn exConn [.nextPn .initial] [] exConn_new exConn_new
  exact ⟨(h 1 1).mpr rfl, fun q => absurd ((h 1 2).mp q) (by decide)⟩
/-- For another id the key is another one. -/
example : ∃ c', Connection.new toy true .v1 ⟨0, 0x0102030405060709⟩ 8 = .ok c' ∧ heldFor exConn false .key ≠ heldFor c' false .key := by
  obtain ⟨c', h'⟩ := new_total toy toy_laws true .v1 ⟨0, 0x0102030405060709⟩ 8 (by decide)
  have t : (match Connection.new toy true .v1 ⟨0, 0x0102030405060709⟩ 8 with | .ok c' => decide (heldFor exConn false .key ≠ heldFor c' false .key) | _ => false) = true := by
    decide +kernel
  rw [h'] at t
  exact ⟨c', h', of_decide_eq_true t⟩

end QuicSea
