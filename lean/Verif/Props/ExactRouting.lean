import Verif.Props.Endpoint
import Verif.Props.Rules
/-
Exact conditions for the properties of routing and accepting that the code has only in part (C43, C49, C50, C51, C58, C60, C61, C62, C64).
-/
namespace QuicSea
open Spec Sock

/-! ## C43 -/

/-- C43, exact: a datagram for a known connection is delivered to it, and to no other, exactly if it is not a Version Negotiation packet or the id has the
value 0. -/
theorem C43_exact (k : Sock) (d : Datagram) (kind : PacketType) (id : Bytes) (ha : Addressed d.data kind id) (key : U160) (x : StreamState)
    (hk : cidVal key = beNat id) (hx : k.streams key = some x) :
    (∃ k', k.routeDatagram d = (.ok (), k') ∧ k'.streams key = some { x with queue := x.queue ++ [d] } ∧ SameBut k k' key) ↔
      (kind = .versionNegotiation → beNat id = 0) := by
  by_cases hv : kind = .versionNegotiation
  · subst hv
    constructor
    · rintro ⟨k', e, hs, -⟩ -
      refine Decidable.byContradiction fun h0 => ?_
      rw [C43_version_negotiation_never_delivered k k' d id ha h0 _ e key hk, hx] at hs
      have := congrArg (fun o => (o.map (fun y => y.queue.length)).getD 0) hs
      simp at this
    · intro h0
      have : key = .zero := cidVal_inj (by rw [hk, h0 rfl]; exact cidVal_zero.symm)
      subst this
      exact (C43_version_negotiation k d id ha).1 x hx
  · exact ⟨fun _ h => absurd h hv, fun _ => (C43_delivers_partial k d kind id ha hv).1 key x hk hx⟩
/-- Both sides occur: a short header for connection 5, and a Version Negotiation packet for it. -/
example : (PacketType.oneRtt = .versionNegotiation → beNat [0, 0, 0, 0, 0, 0, 0, 5] = 0) ∧
    ¬ (PacketType.versionNegotiation = .versionNegotiation → beNat [0, 0, 0, 0, 0, 0, 0, 5] = 0) := by decide

/-! ## C49 -/

/-- A connection takes the datagram: the one with its id or, for Version Negotiation packets, the one with id 0. -/
def Taken (k : Sock) (d : Datagram) : Prop :=
  ∃ key, (IsFor key d ∨ key = .zero ∧ ∃ id, Addressed d.data .versionNegotiation id) ∧ (k.streams key).isSome
/-- The datagram opens a connection. -/
def Opens (k : Sock) (d : Datagram) : Prop := (∃ id, Addressed d.data .initial id) ∧ ¬ Taken k d

theorem taken_iff {k : Sock} {d : Datagram} {kind : PacketType} {id : Bytes} {key : U160} (ha : Addressed d.data kind id) (hk : cidVal key = routeVal kind id) :
    Taken k d ↔ (k.streams key).isSome := by
  constructor
  · rintro ⟨key', ⟨kind', id', ha', hv', hk'⟩ | ⟨rfl, id', ha'⟩, hs⟩
    · obtain ⟨rfl, rfl⟩ := addressed_unique ha ha'
      rw [show routeVal kind id = beNat id from if_neg hv'] at hk
      rwa [cidVal_inj (hk.trans hk'.symm)]
    · obtain ⟨rfl, rfl⟩ := addressed_unique ha ha'
      rwa [cidVal_inj (hk.trans (cidVal_zero.symm : 0 = _))]
  · intro hs
    by_cases hv : kind = .versionNegotiation
    · subst hv
      refine ⟨key, .inr ⟨cidVal_inj (hk.trans (cidVal_zero.symm : 0 = _)), id, ha⟩, hs⟩
    · rw [show routeVal kind id = beNat id from if_neg hv] at hk
      exact ⟨key, .inl ⟨kind, id, ha, hv, hk⟩, hs⟩

theorem routed_key {d : Datagram} {kind : PacketType} {id : Bytes} (ha : Addressed d.data kind id) : ∃ key, cidVal key = routeVal kind id := by
  by_cases hv : kind = .versionNegotiation
  · exact ⟨.zero, by rw [show routeVal kind id = 0 from if_pos hv]; exact cidVal_zero⟩
  · rw [show routeVal kind id = beNat id from if_neg hv]
    exact u160_of_val _ (beNat_lt_160 (addressed_short ha hv))

/-- One turn of the loop: the datagram is taken, or opens a connection, or brings the loop down. -/
theorem loop_turn (k : Sock) (raw : Bytes) (addr : Nat) (net : List NetEvent) :
    (Taken k (seen raw addr) ∧ ∃ k' : Sock, k.recvNewInitialDatagram (.datagram raw addr :: net) = k'.recvNewInitialDatagram net ∧
      ∀ key, (k'.streams key).isSome = (k.streams key).isSome) ∨
    (Opens k (seen raw addr) ∧ ∃ k', k.recvNewInitialDatagram (.datagram raw addr :: net) = (.ok (seen raw addr), k', net)) ∨
    (¬ Taken k (seen raw addr) ∧ ¬ Opens k (seen raw addr) ∧ ∃ w k', k.recvNewInitialDatagram (.datagram raw addr :: net) = (.panic w, k', net) ∧
      k'.streams = k.streams) := by
  obtain ⟨p, hp⟩ := loop_step k raw addr net
  by_cases hm : Malformed (seen raw addr).data
  · obtain ⟨e, he⟩ := route_malformed (k := { k with printed := p }) hm
    refine .inr (.inr ⟨?_, fun ho => hm ⟨_, ho.1⟩, ?_⟩)
    · rintro ⟨_, ⟨kind, id, ha, _⟩ | ⟨_, id, ha⟩, _⟩ <;> exact hm ⟨_, _, ha⟩
    · rw [hp, isNew_malformed hm]
      simp only [he]
      exact ⟨_, _, rfl, rfl⟩
  · obtain ⟨kind, id, ha⟩ := Classical.not_not.mp hm
    obtain ⟨key, hk⟩ := routed_key ha
    rw [isNew_addressed ha hk] at hp
    simp only [Opens, taken_iff ha hk]
    cases hx : k.streams key with
    | some x =>
      simp only [hx, Option.isNone_some, Bool.and_false, route_known (k := { k with printed := p }) ha hk hx] at hp
      refine .inl ⟨rfl, _, hp, fun key' => ?_⟩
      simp only [tableInsert]
      split
      · subst key'
        rw [hx]
        rfl
      · rfl
    | none =>
      simp only [hx, Option.isNone_none, Bool.and_true] at hp
      by_cases hi : kind = .initial
      · subst hi
        exact .inr (.inl ⟨⟨⟨id, ha⟩, by simp⟩, _, hp⟩)
      · have he := route_unknown (k := { k with printed := p }) ha (fun key' h' => by rw [cidVal_inj (h'.trans hk.symm)]; exact hx)
        simp only [hi, decide_false, he] at hp
        refine .inr (.inr ⟨by simp, ?_, _, _, hp, rfl⟩)
        rintro ⟨⟨id', ha'⟩, -⟩
        exact hi (addressed_unique ha ha').1

/-- C49, exact: whatever arrives, waiting for a connection panics exactly if, of the datagrams that no connection takes, the first does not open one. -/
theorem C49_exact (ds : List (Bytes × Nat)) (k : Sock) :
    (∃ w, (k.recvNewInitialDatagram (ds.map fun r => .datagram r.1 r.2)).1 = .panic w) ↔
      ∃ pre r post, ds = pre ++ r :: post ∧ (∀ q ∈ pre, Taken k (seen q.1 q.2)) ∧ ¬ Taken k (seen r.1 r.2) ∧ ¬ Opens k (seen r.1 r.2) := by
  induction ds generalizing k with
  | nil =>
    constructor
    · rintro ⟨w, h⟩
      cases h
    · rintro ⟨pre, r, post, h, _⟩
      cases pre <;> cases h
  | cons a ds ih =>
    rw [List.map_cons]
    rcases loop_turn k a.1 a.2 (ds.map fun r => .datagram r.1 r.2) with ⟨ht, k', e, hs⟩ | ⟨⟨ho, hnt⟩, k', e⟩ | ⟨hnt, hno, w, k', e, -⟩
    · have same : ∀ d, Taken k' d ↔ Taken k d := fun d => by simp only [Taken, hs]
      rw [e, ih]
      simp only [Opens, same]
      constructor
      · rintro ⟨pre, r, post, rfl, h1, h2⟩
        refine ⟨a :: pre, r, post, rfl, ?_, h2⟩
        intro q hq
        rcases List.mem_cons.mp hq with rfl | hq
        · exact ht
        · exact h1 q hq
      · rintro ⟨pre, r, post, h, h1, h2⟩
        cases pre with
        | nil =>
          cases h
          exact absurd ht h2.1
        | cons q pre =>
          cases h
          exact ⟨pre, r, post, rfl, fun q hq => h1 q (List.mem_cons_of_mem _ hq), h2⟩
    · rw [e]
      constructor
      · rintro ⟨w, h⟩
        cases h
      · rintro ⟨pre, r, post, h, h1, h2, h3⟩
        cases pre with
        | nil =>
          cases h
          exact absurd ⟨ho, hnt⟩ h3
        | cons q pre =>
          cases h
          exact absurd (h1 _ List.mem_cons_self) hnt
    · rw [e]
      exact ⟨fun _ => ⟨[], a, ds, rfl, by simp, hnt, hno⟩, fun _ => ⟨w, rfl⟩⟩
/-- With connections 5 and 6: a datagram for 5 and then an Initial for an unknown id do no harm; a datagram for an unknown id does. -/
example : Taken exTable (seen exShort.data 1) ∧ Opens Sock.bind (seen exInitial.data 1) ∧ ¬ Taken Sock.bind (seen exShort.data 1) ∧
    ¬ Opens Sock.bind (seen exShort.data 1) := by
  refine ⟨⟨.ofU64 5, .inl ⟨_, _, exShort_addressed, by decide, by decide +kernel⟩, by decide +kernel⟩, ⟨⟨_, exInitial_addressed⟩, ?_⟩, ?_, ?_⟩
  · rintro ⟨_, _, h⟩
    cases h
  · rintro ⟨_, _, h⟩
    cases h
  · rintro ⟨⟨id, h⟩, -⟩
    exact absurd (addressed_unique h exShort_addressed).1 (by decide)

/-! ## C50 -/

/-- C50, exact: once an Initial has been accepted, its repetition is routed to the connection exactly if the random id the server took has, by chance, the
value of the id the client had made up. -/
theorem C50_exact (P : Prims) (hP : PrimLaws P) (k k1 : Sock) (raw : Bytes) (addr : Nat) (id : Bytes) (srcId : U64)
    (rng rng' : List U64) (r : Io U160) (net net' : List NetEvent) (key : U160) (ha : Addressed (seen raw addr).data .initial id)
    (hn : ∀ key, cidVal key = beNat id → k.streams key = none) (hk : cidVal key = srcId.toNat) (hf : k.streams key = none)
    (h : k.accept P (.datagram raw addr :: net) (srcId :: rng) = (r, k1, net', rng')) :
    (∃ x k2, k1.recvNewInitialDatagram [.datagram raw addr] = (.blocked, k2, []) ∧ k1.streams key = some x
      ∧ k2.streams key = some { x with queue := x.queue ++ [seen raw addr] }) ↔ beNat id = srcId.toNat := by
  have hf' : ∀ key', cidVal key' = srcId.toNat → k.streams key' = none := fun key' h' => by rw [cidVal_inj (h'.trans hk.symm)]; exact hf
  obtain ⟨key0, c, dcid, a1, a2, a3, a4, a5⟩ := accepted hP ha hn hf' h
  have e0 : key0 = key := cidVal_inj (a1.trans hk.symm)
  subst e0
  constructor
  · rintro ⟨x, k2, h1, -⟩
    refine Decidable.byContradiction fun hne => ?_
    obtain ⟨p, hp⟩ := C49_new_initial k1 raw addr [] id ha (fun key' hk' => by
      rw [a5 key' (fun e => hne (by rw [← hk', e, hk]))]
      exact hn key' hk')
    rw [hp] at h1
    cases h1
  · intro e
    obtain ⟨k2, b1, b2, -⟩ := C50_known_id_partial k1 raw addr id key0 _ [] ha (hk.trans e.symm) a4
    exact ⟨_, k2, b1, a4, b2⟩
/-- The datagram of the witnesses: id 5, random id 7 or, by chance, 5. -/
example : beNat [0, 0, 0, 0, 0, 0, 0, 5] ≠ (7 : U64).toNat ∧ beNat [0, 0, 0, 0, 0, 0, 0, 5] = (5 : U64).toNat := by decide

/-! ## C51 -/

/-- C51, exact: datagrams with the ids `id1` and `id2` can meet in one connection exactly if the longer id is the shorter with zero bytes in front. -/
theorem C51_exact (d1 d2 : Datagram) (kind1 kind2 : PacketType) (id1 id2 : Bytes) (h1 : Addressed d1.data kind1 id1) (h2 : Addressed d2.data kind2 id2)
    (v1 : kind1 ≠ .versionNegotiation) (v2 : kind2 ≠ .versionNegotiation) (hl : id1.length ≤ id2.length) :
    (∃ (k k1 k2 : Sock) (key : U160) (x : StreamState), k.streams key = some x ∧ k.routeDatagram d1 = (.ok (), k1) ∧ k.routeDatagram d2 = (.ok (), k2) ∧
      k1.streams key = some { x with queue := x.queue ++ [d1] } ∧ k2.streams key = some { x with queue := x.queue ++ [d2] }) ↔
    id2 = List.replicate (id2.length - id1.length) 0 ++ id1 := by
  constructor
  · rintro ⟨k, k1, k2, key, x, hx, e1, e2, s1, s2⟩
    refine Decidable.byContradiction fun hne => ?_
    rcases C51_different_values_partial k k1 k2 d1 d2 kind1 kind2 id1 id2 key x h1 h2 v1 v2 hl hne hx _ _ e1 e2 with h | h
    · rw [h] at s1
      have := congrArg (fun o => (o.map (fun y => y.queue.length)).getD 0) s1
      simp at this
    · rw [h] at s2
      have := congrArg (fun o => (o.map (fun y => y.queue.length)).getD 0) s2
      simp at this
  · intro e
    obtain ⟨key, hk⟩ := u160_of_val (beNat id1) (beNat_lt_160 (addressed_short h1 v1))
    rw [e] at h2
    obtain ⟨k1, k2, g⟩ := C51_leading_zeros ⟨fun _ => some (.fromConnection exRouteConn), false, []⟩ d1 d2 kind1 kind2 id1 _ key _ h1 h2 v1 v2 hk rfl
    exact ⟨_, k1, k2, key, _, rfl, g⟩
/-- The ids 5 in one and in eight bytes; and one byte against another value. -/
example : ([0, 0, 0, 0, 0, 0, 0, 5] : Bytes) = List.replicate (8 - 1) 0 ++ [5] ∧ ([0, 0, 0, 0, 0, 0, 0, 5] : Bytes) ≠ List.replicate (8 - 1) 0 ++ [6] := by decide

/-! ## C58 -/

/-- C58, exact: an Initial packet built for an accepted connection goes to the client's source id exactly if the client made up that same id for the server. -/
theorem C58_exact (P : Prims) (hP : PrimLaws P) (bp : Profile) (k k' : Sock) (raw : Bytes) (addr : Nat) (net net' : List NetEvent) (v : U32)
    (d s : Bytes) (srcId : U64) (rng rng' : List U64) (r : Io U160) (ho : OpensWith (seen raw addr).data v d s)
    (hn : ∀ key, cidVal key = beNat d → k.streams key = none) (hf : ∀ key, cidVal key = srcId.toNat → k.streams key = none)
    (h : k.accept P (.datagram raw addr :: net) (srcId :: rng) = (r, k', net', rng')) (key : U160) (x : StreamState) (hk : k.streams key = none)
    (hx : k'.streams key = some x) (ops : List ConnOp) (fs : List Frame) (token : Option Bytes) :
    (∀ p, (PacketInitial.new bp fs token (x.connection.run bp ops).2).1 = .ok p → (SentTo p.header s ↔ s = d)) ∧
    (∀ p, (PacketHandshake.new bp fs (x.connection.run bp ops).2).1 = .ok p → (SentTo p.header s ↔ s = d)) := by
  obtain ⟨g1, g2⟩ := C58_sent_to_original P hP bp k k' raw addr net net' v d s srcId rng rng' r ho hn hf h key x hk hx ops fs token
  have key : ∀ hd, SentTo hd d → (SentTo hd s ↔ s = d) := by
    intro hd hd1
    refine ⟨fun hd2 => beNat_inj (hd2.1.symm.trans hd1.1) (hd2.2.symm.trans hd1.2), fun e => e ▸ hd1⟩
  exact ⟨fun p hp => key _ (g1 p hp), fun p hp => key _ (g2 p hp)⟩
/-- The client of the witness (`exOpening_opens`, `exOpening_builds`): the ids differ. -/
example : ([9, 9] : Bytes) ≠ [0, 0, 0, 0, 0, 0, 0, 5] := by decide

/-! ## C60 -/

/-- C60, exact: a datagram is handed on as it was sent exactly if it has at most 4096 bytes. -/
theorem C60_exact (k : Sock) (raw : Bytes) (addr : Nat) : (k.recvDatagram (.datagram raw addr)).1 = .ok ⟨raw, addr⟩ ↔ raw.length ≤ 4096 := by
  refine ⟨fun h => ?_, C60_intact_partial k raw addr⟩
  refine Decidable.byContradiction fun hl => ?_
  obtain ⟨d, e1, e2, _⟩ := C60_truncated k raw addr (by omega)
  rw [h] at e1
  cases e1
  exact e2 rfl
example : (Sock.bind.recvDatagram (.datagram (List.replicate 4096 7) 1)).1 = .ok ⟨List.replicate 4096 7, 1⟩ :=
  (C60_exact _ _ _).mpr (by rw [List.length_replicate]; exact Nat.le_refl _)

/-! ## C61 -/

/-- C61, exact, and with it C59: a datagram opens a connection exactly if it starts with the header of an Initial packet, of any version but 0 and with any
length behind it, whose destination id is that of no connection. Neither the size of the datagram nor what follows the header, nor whether that is authentic,
comes into it. -/
theorem C61_exact (P : Prims) (hP : PrimLaws P) (k k' : Sock) (raw : Bytes) (addr : Nat) (net' : List NetEvent) (srcId : U64) (rng rng' : List U64)
    (r : Io U160) (hf : ∀ key, cidVal key = srcId.toNat → k.streams key = none)
    (h : k.accept P [.datagram raw addr] (srcId :: rng) = (r, k', net', rng')) :
    (∃ key, k.streams key = none ∧ (k'.streams key).isSome) ↔
      ∃ v d s, OpensWith (seen raw addr).data v d s ∧ ∀ key, cidVal key = beNat d → k.streams key = none := by
  constructor
  · rintro ⟨key, h1, h2⟩
    unfold Sock.accept at h
    rcases loop_turn k raw addr [] with ⟨ht, k1, e, hs⟩ | ⟨⟨⟨id, ha⟩, hnt⟩, k1, e⟩ | ⟨hnt, hno, w, k1, e, hs⟩
    · rw [e] at h
      simp only [recvNewInitialDatagram] at h
      cases h
      rw [hs, h1] at h2
      cases h2
    · have hun : ∀ key, cidVal key = beNat id → k.streams key = none := by
        intro key hk
        cases hx : k.streams key with
        | none => rfl
        | some x => exact absurd ((taken_iff (k := k) ha (show cidVal key = routeVal .initial id from hk)).mpr (by rw [hx]; rfl)) hnt
      rcases ha with ⟨_, _, _, _, _, hk⟩ | ⟨first, vb, dl, sl, s, rest, v, g1, g2, g3, g4, g5, g6, g7, g8⟩
      · cases hk
      · refine ⟨v, id, s, ⟨first, vb, dl, sl, rest, g1, g2, g3, g4, g5, g6, ?_⟩, hun⟩
        have hv : v.toNat ≠ 0 := fun h0 => by
          rw [(packetKind_vn g2).mpr h0] at g8
          cases g8
        exact ⟨(g7 hv).1, (g7 hv).2, g8.symm⟩
    · rw [e] at h
      cases h
      rw [hs, h1] at h2
      cases h2
  · rintro ⟨v, d, s, ho, hn⟩
    exact C61_any_size_opens P hP k k' raw addr [] net' v d s srcId rng rng' r ho hn hf h

/-- The datagram of the witness, of 18 bytes, opens a connection; the short datagram does not. -/
example : (∃ v d s, OpensWith (seen exOpening 1).data v d s) ∧ ¬ ∃ v d s, OpensWith (seen exShort.data 1).data v d s := by
  refine ⟨⟨_, _, _, exOpening_opens⟩, ?_⟩
  rintro ⟨v, d, s, h⟩
  exact absurd (addressed_unique (opens_addressed h) exShort_addressed).1 (by decide)

/-! ## C62 -/

/-- C62, exact: the datagram that opened a connection is never in its queue, and decoding it finds the connection exactly if the random id the server took has,
by chance, the value of the id the client had made up. -/
theorem C62_exact (P : Prims) (hP : PrimLaws P) (bp : Profile) (k k' : Sock) (raw : Bytes) (addr : Nat) (net net' : List NetEvent) (v : U32)
    (d s : Bytes) (srcId : U64) (rng rng' : List U64) (r : Io U160) (ho : OpensWith (seen raw addr).data v d s)
    (hn : ∀ key, cidVal key = beNat d → k.streams key = none) (hf : ∀ key, cidVal key = srcId.toNat → k.streams key = none)
    (h : k.accept P (.datagram raw addr :: net) (srcId :: rng) = (r, k', net', rng')) :
    (∀ key x, k.streams key = none → k'.streams key = some x → x.queue = []) ∧
    ((∃ key x, cidVal key = beNat d ∧ k'.streams key = some x) ↔ beNat d = srcId.toNat) ∧
    (beNat d ≠ srcId.toNat → k'.packetsFromDatagram bp (seen raw addr) = (.err (.internalError "connection not found"), k')) := by
  obtain ⟨key0, c, dcid, a1, a2, a3, a4, a5⟩ := accepted hP (opens_addressed ho) hn hf h
  refine ⟨?_, ⟨?_, fun e => ⟨key0, _, a1.trans e.symm, a4⟩⟩, fun hne => (C62_opening_lost P hP bp k k' raw addr net net' v d s srcId rng rng' r ho hn hf hne h).2⟩
  · intro key x hk hx
    by_cases e : key = key0
    · subst e
      rw [a4] at hx
      cases hx
      rfl
    · rw [a5 key e, hk] at hx
      cases hx
  · rintro ⟨key, x, e1, e2⟩
    by_cases e : key = key0
    · rw [← e1, e, a1]
    · rw [a5 key e, hn key e1] at e2
      cases e2

example : beNat [0, 0, 0, 0, 0, 0, 0, 5] ≠ (7 : U64).toNat ∧ OpensWith (seen exOpening 1).data 1 [0, 0, 0, 0, 0, 0, 0, 5] [9, 9] :=
  ⟨by decide, exOpening_opens⟩

/-! ## C64 -/

/-- C64, exact: a payload is delivered without frames exactly if it is empty. -/
theorem C64_exact (payload : Bytes) : (deserializeFrames (makeResultStream payload)).1 = .ok [] ↔ payload = [] := by
  constructor
  · intro h
    refine Decidable.byContradiction fun hne => C64_nonempty_partial payload hne [] h rfl
  · rintro rfl
    decide +kernel
example : (deserializeFrames (makeResultStream [0])).1 = .ok [.padding] := by decide +kernel
end QuicSea
