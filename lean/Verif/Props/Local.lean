import Verif.Proofs.Local
import Verif.Props.Rules
import Verif.Proofs.Routing
/-
C81: packets with a Length field are decoded from their own bytes alone.
-/
namespace QuicSea
open Spec

/-! ## C81 -/

/-- C81, any keys installed in any space: what is decoded does not depend on what follows the packet in the datagram. -/
theorem C81_own_bytes (P : Prims) (bp : Profile) (c : Connection) (hk : ∀ sp, KeysOrNone P c sp) (s s' : Stream) (p : Packet) (hp : hasLength p = true)
    (h : decodeNextPacket bp c s = (.ok p, s')) :
    ∃ out, out ≠ [] ∧ s = makeResultStream out ++ s' ∧ ∀ t, decodeNextPacket bp c (makeResultStream out ++ t) = (.ok p, t) := by
  obtain ⟨bs, e, r⟩ := decodeNext_local hk hp h
  refine ⟨bs, ?_, e, r⟩
  rintro rfl
  have := decodeNext_nil bp c
  rw [show decodeNextPacket bp c [] = _ from r []] at this
  cases this

theorem reachable_keysOrNone {P : Prims} (hP : PrimLaws P) {bp : Profile} {c : Connection} (h : Connection.Reachable P bp c) (sp : PnSpace) : KeysOrNone P c sp := by
  obtain ⟨⟨kl, kr, _, _, _, m⟩, g⟩ := reachable_keys hP h
  by_cases e : sp = .initial
  · exact .inl ⟨kr, e ▸ m⟩
  · exact .inr (g sp e).2

/-- The kind of a decoded packet is that of the header it begins with. -/
theorem decoded_kind {bp : Profile} {c : Connection} {s s1 s' : Stream} {x : LongPacketHeader} {p : Packet} (hx : nextHeaderFromStream s = (.ok (.long x), s1))
    (h : decodeNextPacket bp c s = (.ok p, s')) : p.kind = packetKind x.headerByte x.version := by
  rw [decodeNext_long hx] at h
  cases hk : packetKind x.headerByte x.version <;> rw [hk] at h
  case oneRtt => cases h
  case statelessReset => cases h
  all_goals (obtain ⟨_, _, e, h⟩ := Rd.bind_eq_ok h; cases h; rfl)

theorem kind_hasLength {p q : Packet} (h : p.kind = q.kind) : hasLength p = hasLength q := by
  cases p <;> cases q <;> first | rfl | cases h

theorem stream_prefix {bs a b : Bytes} {s s' : Stream} (h : makeResultStream a = makeResultStream bs ++ s') (e : s = makeResultStream (a ++ b)) :
    s = makeResultStream bs ++ (s' ++ makeResultStream b) := by
  rw [e, makeResultStream_append, h, List.append_assoc]

/-- C81: no proper part of a packet from its beginning is decoded, as the same packet or as any other. -/
theorem C81_prefix_free (P : Prims) (bp : Profile) (c : Connection) (hk : ∀ sp, KeysOrNone P c sp) (a b : Bytes) (hb : b ≠ []) (p : Packet)
    (hp : hasLength p = true) (h : decodeNextPacket bp c (makeResultStream (a ++ b)) = (.ok p, [])) (q : Packet) (s' : Stream) :
    decodeNextPacket bp c (makeResultStream a) ≠ (.ok q, s') := by
  intro hq
  have hlen : hasLength q = true := by
    obtain ⟨x, s1, hx⟩ := decodeNext_header hq
    cases x with
    | long x =>
      obtain ⟨bs, e, g1, g2, g3⟩ := nextHeader_long_iff.mp hx
      have hx' := nextHeader_long_iff.mpr ⟨bs, stream_prefix (b := b) e rfl, g1, g2, g3⟩
      rw [kind_hasLength ((decoded_kind hx hq).trans (decoded_kind hx' h).symm), hp]
    | short x =>
      obtain ⟨bs, e, g1, g2, g3⟩ := nextHeader_short_iff.mp hx
      have hx' := nextHeader_short_iff.mpr ⟨bs, stream_prefix (b := b) e rfl, g1, g2, g3⟩
      rw [decodeNext_short hx'] at h
      obtain ⟨_, _, _, h⟩ := Rd.bind_eq_ok h
      cases h
      cases hp
  obtain ⟨bs, e, r⟩ := decodeNext_local hk hlen hq
  have := r (s' ++ makeResultStream b)
  rw [← stream_prefix e rfl, h] at this
  have e2 := (Prod.mk.inj this).2
  have e3 : makeResultStream b = [] := List.append_eq_nil_iff.mp e2.symm |>.2
  exact hb (makeResultStream_inj e3)

/-- What a datagram gives when packets `ps` stand before it. -/
def after (ps : List Packet) : Out (List Packet) → Out (List Packet)
  | .ok qs => .ok (ps ++ qs)
  | .err e => .err e
  | .panic w => .panic w

/-- C81 for datagrams: if `a` is decoded into packets with Length fields, then any `b` after it is decoded as if it were alone. -/
theorem C81_datagrams (P : Prims) (bp : Profile) (c : Connection) (hk : ∀ sp, KeysOrNone P c sp) (a b : Bytes) (ps : List Packet)
    (hp : ∀ p ∈ ps, hasLength p = true) (h : (decodePackets bp c (makeResultStream a)).1 = .ok ps) :
    (decodePackets bp c (makeResultStream (a ++ b))).1 = after ps (decodePackets bp c (makeResultStream b)).1 := by
  induction hn : ps.length generalizing ps a with
  | zero =>
    cases List.length_eq_zero_iff.mp hn
    by_cases ha : a = []
    · subst ha
      rw [List.nil_append]
      cases (decodePackets bp c (makeResultStream b)).1 <;> rfl
    · exfalso
      have hne : makeResultStream a ≠ [] := fun e => ha (makeResultStream_inj e)
      rw [decodePackets_eq _ _ _ hne] at h
      obtain ⟨x, s1, h1, h2⟩ := Rd.bind_eq_ok (Prod.ext h rfl)
      obtain ⟨y, s2, h3, h4⟩ := Rd.bind_eq_ok h2
      cases h4
  | succ n ih =>
    match ps, hn with
    | p :: ps, hn =>
      have ha : a ≠ [] := by
        rintro rfl
        unfold decodePackets at h
        cases h
      have hne : makeResultStream a ≠ [] := fun e => ha (makeResultStream_inj e)
      rw [decodePackets_eq _ _ _ hne] at h
      obtain ⟨x, s1, h1, h2⟩ := Rd.bind_eq_ok (Prod.ext h rfl)
      obtain ⟨y, s2, h3, h4⟩ := Rd.bind_eq_ok h2
      have hxy : x = p ∧ y = ps := by cases h4; exact ⟨rfl, rfl⟩
      obtain ⟨rfl, rfl⟩ := hxy
      obtain ⟨bs, e, r⟩ := decodeNext_local hk (hp x List.mem_cons_self) h1
      obtain ⟨a', rfl⟩ := stream_suffix e
      have ih := ih a' y (fun q hq => hp q (List.mem_cons_of_mem _ hq)) (by rw [h3]) (by simpa using hn)
      have e2 : makeResultStream (a ++ b) = makeResultStream bs ++ makeResultStream (a' ++ b) := by
        rw [makeResultStream_append, e, makeResultStream_append, List.append_assoc]
      have hne2 : makeResultStream (a ++ b) ≠ [] := by
        rw [makeResultStream_append]
        simp [hne]
      rw [decodePackets_eq _ _ _ hne2, e2, Rd.bind_ok (r _), Rd.bind_apply]
      rcases hd : decodePackets bp c (makeResultStream (a' ++ b)) with ⟨o, t⟩
      rw [hd] at ih
      dsimp only at ih
      subst ih
      cases (decodePackets bp c (makeResultStream b)).1 <;> rfl

/-- C81 for every connection after any history, which has keys for Initial packets only. -/
theorem C81_reachable (P : Prims) (hP : PrimLaws P) (bp bp' : Profile) (c : Connection) (hr : Connection.Reachable P bp c) (s s' : Stream) (p : PacketInitial)
    (h : decodeNextPacket bp' c s = (.ok (.initial p), s')) :
    ∃ out, s = makeResultStream out ++ s' ∧ (∀ t, decodeNextPacket bp' c (makeResultStream out ++ t) = (.ok (.initial p), t)) ∧
      ∀ a b, out = a ++ b → b ≠ [] → ∀ q s'', decodeNextPacket bp' c (makeResultStream a) ≠ (.ok q, s'') := by
  obtain ⟨out, -, e, r⟩ := C81_own_bytes P bp' c (reachable_keysOrNone hP hr) s s' _ rfl h
  refine ⟨out, e, r, fun a b hab hb q s'' => ?_⟩
  exact C81_prefix_free P bp' c (reachable_keysOrNone hP hr) a b hb (.initial p) rfl (by rw [← hab]; simpa using r []) q s''

/-- Non-trivial instance: a packet followed by rubbish, its parts, and two packets. -/
example : (decodeNextPacket .debug exConn (makeResultStream (exOut 4 ++ [1, 2, 3]))).1.isOk = true ∧
    (decodeNextPacket .debug exConn (makeResultStream (exOut 4 ++ [1, 2, 3]))).2.length = 3 ∧
    (List.range (exOut 4).length).all (fun n => !(decodeNextPacket .debug exConn (makeResultStream ((exOut 4).take n))).1.isOk) = true ∧
    (okPackets (decodePackets .debug exConn (makeResultStream (exOut 4 ++ exSealed 0xc3 [1]))).1).length = 2 := by decide +kernel
example : ∀ sp, KeysOrNone toy exConn sp := reachable_keysOrNone toy_laws exConn_reachable

end QuicSea
