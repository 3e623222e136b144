import Verif.Model.Random
import Verif.Props.Ending
import Verif.Props.Output
/-
C132: what a failure of the random source does.
-/
namespace QuicSea
open Spec Sock
variable {P : Prims} {bp : Profile}

/-! ### One call -/

/-- The random source offers this id: it is the first of those it gives that is free, and the source did not fail before. -/
def Offers (k : Sock) (rng : List (Option U64)) (id : U160) : Prop :=
  ∃ (pre : List U64) (u : U64) (post : List (Option U64)), rng = pre.map some ++ some u :: post ∧ (∀ v ∈ pre, ∀ key, cidVal key = v.toNat → (k.streams key).isSome) ∧
    cidVal id = u.toNat ∧ k.streams id = none

/-- A datagram comes that opens a connection, after others that connections take. -/
def ClientComes (k : Sock) (net : List NetEvent) : Prop :=
  ∃ (pre : List (Bytes × Nat)) (raw : Bytes) (addr : Nat) (post : List NetEvent),
    net = pre.map (fun r => .datagram r.1 r.2) ++ .datagram raw addr :: post ∧ (∀ r ∈ pre, Taken k (seen r.1 r.2)) ∧ Opens k (seen raw addr)

/-- How waiting for a client must end where the random source may fail; as `AcceptEnds`. -/
inductive AcceptEndsR (k : Sock) (rng : List (Option U64)) : List NetEvent → Ending → Prop where
  | quiet : AcceptEndsR k rng [] .waits
  | fault (net) : AcceptEndsR k rng (.ioError :: net) .fails
  | taken (raw addr net e) (h : Taken k (seen raw addr)) (hn : AcceptEndsR k rng net e) : AcceptEndsR k rng (.datagram raw addr :: net) e
  | stray (raw addr net) (h : ¬ Taken k (seen raw addr)) (ho : ¬ Opens k (seen raw addr)) : AcceptEndsR k rng (.datagram raw addr :: net) .dies
  | client (raw addr net) (h : Opens k (seen raw addr)) (u : U64) (hu : some u ∈ rng) (key : U160) (hk : cidVal key = u.toNat) (hf : k.streams key = none) :
      AcceptEndsR k rng (.datagram raw addr :: net) .dies
  | noRandom (raw addr net) (h : Opens k (seen raw addr)) (hu : none ∈ rng) : AcceptEndsR k rng (.datagram raw addr :: net) .dies
  | crowded (raw addr net) (h : Opens k (seen raw addr)) (hn : none ∉ rng) (hu : ∀ u, some u ∈ rng → ∀ key, cidVal key = u.toNat → (k.streams key).isSome) :
      AcceptEndsR k rng (.datagram raw addr :: net) .waits

theorem offers_cons_taken {k : Sock} {r : U64} {rng : List (Option U64)} {id : U160} (hs : (k.streams (.ofU64 r)).isSome) :
    Offers k (some r :: rng) id ↔ Offers k rng id := by
  have hk : ∀ key, cidVal key = r.toNat → key = .ofU64 r := fun key h => cidVal_inj (h.trans (cidVal_ofU64 r).symm)
  constructor
  · rintro ⟨pre, u, post, e, h1, h2, h3⟩
    cases pre with
    | nil =>
      cases e
      rw [hk id h2] at h3
      rw [h3] at hs
      cases hs
    | cons v pre =>
      simp only [List.map_cons, List.cons_append, List.cons.injEq] at e
      exact ⟨pre, u, post, e.2, fun v hv => h1 v (List.mem_cons_of_mem _ hv), h2, h3⟩
  · rintro ⟨pre, u, post, rfl, h1, h2, h3⟩
    refine ⟨r :: pre, u, post, rfl, fun v hv => ?_, h2, h3⟩
    rcases List.mem_cons.mp hv with rfl | hv
    · exact fun key h => hk key h ▸ hs
    · exact h1 v hv

/-- Registration: under the id that is offered; or it panics, the source having failed; or it waits. -/
theorem registerR_exact (rng : List (Option U64)) (k : Sock) (y : StreamState) :
    (∃ id, Offers k rng id ∧ (∀ id', Offers k rng id' → id' = id) ∧ (k.registerR y rng).1 = .ok id ∧
      (k.registerR y rng).2.1 = { k with streams := tableInsert k.streams id { y with connection := y.connection.setScid id 8 } }) ∨
    ((∀ id, ¬ Offers k rng id) ∧ none ∈ rng ∧ (∃ w, (k.registerR y rng).1 = .panic w) ∧ (k.registerR y rng).2.1 = k) ∨
    ((∀ id, ¬ Offers k rng id) ∧ none ∉ rng ∧ (∀ u, some u ∈ rng → ∀ key, cidVal key = u.toNat → (k.streams key).isSome) ∧
      (k.registerR y rng).1 = .blocked ∧ (k.registerR y rng).2.1 = k) := by
  induction rng with
  | nil =>
    refine .inr (.inr ⟨?_, by simp, by simp, rfl, rfl⟩)
    rintro id ⟨pre, u, post, e, -⟩
    cases pre <;> cases e
  | cons r rng ih =>
    cases r with
    | none =>
      refine .inr (.inl ⟨?_, by simp, ⟨_, rfl⟩, rfl⟩)
      rintro id ⟨pre, u, post, e, -⟩
      cases pre <;> cases e
    | some r =>
      have hk : ∀ key, cidVal key = r.toNat → key = .ofU64 r := fun key h => cidVal_inj (h.trans (cidVal_ofU64 r).symm)
      unfold registerR
      dsimp only
      cases hx : k.streams (.ofU64 r) with
      | none =>
        refine .inl ⟨.ofU64 r, ⟨[], r, rng, rfl, by simp, cidVal_ofU64 r, hx⟩, ?_, rfl, rfl⟩
        rintro id' ⟨pre, u, post, e, h1, h2, h3⟩
        cases pre with
        | nil => cases e; exact hk id' h2
        | cons v pre =>
          simp only [List.map_cons, List.cons_append, List.cons.injEq, Option.some.injEq] at e
          have := h1 v (by simp) (.ofU64 r) (by rw [cidVal_ofU64, e.1])
          rw [hx] at this
          cases this
      | some x =>
        have hs : (k.streams (.ofU64 r)).isSome := by rw [hx]; rfl
        simp only [Option.isNone_some, Bool.false_eq_true, if_false]
        simp only [offers_cons_taken hs, List.mem_cons, reduceCtorEq, false_or]
        rcases ih with h | h | ⟨h1, h2, h3, h4⟩
        · exact .inl h
        · exact .inr (.inl h)
        · refine .inr (.inr ⟨h1, h2, ?_, h4⟩)
          rintro u (e | hu) key hkey
          · cases e
            exact hk key hkey ▸ hs
          · exact h3 u hu key hkey

/-- What `accept` is about: the ids in the table only. -/
theorem offers_of_ids {k k' : Sock} (h : ∀ key, (k'.streams key).isSome = (k.streams key).isSome) (rng id) : Offers k' rng id ↔ Offers k rng id := by
  have hn : ∀ key, k'.streams key = none ↔ k.streams key = none := fun key => by
    rw [← Option.not_isSome_iff_eq_none, ← Option.not_isSome_iff_eq_none, h]
  simp only [Offers, h, hn]

theorem taken_of_ids {k k' : Sock} (h : ∀ key, (k'.streams key).isSome = (k.streams key).isSome) (d) : Taken k' d ↔ Taken k d := by simp only [Taken, h]

theorem opens_of_ids {k k' : Sock} (h : ∀ key, (k'.streams key).isSome = (k.streams key).isSome) (d) : Opens k' d ↔ Opens k d := by
  simp only [Opens, taken_of_ids h]

theorem clientComes_of_ids {k k' : Sock} (h : ∀ key, (k'.streams key).isSome = (k.streams key).isSome) (net) : ClientComes k' net ↔ ClientComes k net := by
  simp only [ClientComes, taken_of_ids h, opens_of_ids h]

theorem acceptEndsR_of_ids {k k' : Sock} (h : ∀ key, (k'.streams key).isSome = (k.streams key).isSome) {rng net e} (he : AcceptEndsR k' rng net e) :
    AcceptEndsR k rng net e := by
  have hn : ∀ key, k'.streams key = none ↔ k.streams key = none := fun key => by
    rw [← Option.not_isSome_iff_eq_none, ← Option.not_isSome_iff_eq_none, h]
  induction he with
  | quiet => exact .quiet
  | fault net => exact .fault net
  | taken raw addr net e h1 _ ih => exact .taken _ _ _ _ ((taken_of_ids h _).mp h1) ih
  | stray raw addr net h1 h2 => exact .stray _ _ _ (fun x => h1 ((taken_of_ids h _).mpr x)) (fun x => h2 ((opens_of_ids h _).mpr x))
  | client raw addr net h1 u hu key hk h2 => exact .client _ _ _ ((opens_of_ids h _).mp h1) u hu key hk ((hn key).mp h2)
  | noRandom raw addr net h1 hu => exact .noRandom _ _ _ ((opens_of_ids h _).mp h1) hu
  | crowded raw addr net h1 h2 hu => exact .crowded _ _ _ ((opens_of_ids h _).mp h1) h2 (fun u h2 key hk => by rw [← h key]; exact hu u h2 key hk)

/-- What may be said of a call after one datagram that a connection takes. -/
theorem clientComes_taken {k : Sock} {raw : Bytes} {addr : Nat} {net : List NetEvent} (ht : Taken k (seen raw addr)) :
    ClientComes k (.datagram raw addr :: net) ↔ ClientComes k net := by
  constructor
  · rintro ⟨pre, r, a, post, e, h1, h2⟩
    cases pre with
    | nil =>
      cases e
      exact absurd ht h2.2
    | cons p pre =>
      simp only [List.map_cons, List.cons_append, List.cons.injEq] at e
      exact ⟨pre, r, a, post, e.2, fun r hr => h1 r (List.mem_cons_of_mem _ hr), h2⟩
  · rintro ⟨pre, r, a, post, rfl, h1, h2⟩
    refine ⟨(raw, addr) :: pre, r, a, post, rfl, fun r hr => ?_, h2⟩
    rcases List.mem_cons.mp hr with rfl | hr
    · exact ht
    · exact h1 r hr

/-- Both what is in the table afterwards and how the call ends. -/
theorem acceptR_both (hP : PrimLaws P) (net : List NetEvent) (rng : List (Option U64)) (k : Sock) :
    AcceptEndsR k rng net (endOf (k.acceptR P net rng).1) ∧
    ∀ id, ((k.acceptR P net rng).2.1.streams id).isSome ↔ (k.streams id).isSome ∨ ClientComes k net ∧ Offers k rng id := by
  induction net generalizing k with
  | nil =>
    refine ⟨.quiet, fun id => ⟨.inl, fun h => h.resolve_right ?_⟩⟩
    rintro ⟨⟨pre, raw, addr, post, e, -⟩, -⟩
    cases pre <;> cases e
  | cons e net ih =>
    cases e with
    | ioError =>
      refine ⟨.fault net, fun id => ⟨.inl, fun h => h.resolve_right ?_⟩⟩
      rintro ⟨⟨pre, raw, addr, post, e, -⟩, -⟩
      cases pre <;> cases e
    | datagram raw addr =>
      rcases loop_turn k raw addr net with ⟨ht, k', e, hs⟩ | ⟨ho, -⟩ | ⟨hnt, hno, w, k', e, hs⟩
      · have : (k.acceptR P (.datagram raw addr :: net) rng) = k'.acceptR P net rng := by
          unfold Sock.acceptR
          rw [e]
        rw [this]
        obtain ⟨h1, h2⟩ := ih k'
        refine ⟨.taken _ _ _ _ ht (acceptEndsR_of_ids hs h1), fun id => ?_⟩
        rw [h2 id, hs, clientComes_of_ids hs, offers_of_ids hs, clientComes_taken ht]
      · have hc' : ClientComes k (.datagram raw addr :: net) := ⟨[], raw, addr, net, rfl, by simp, ho⟩
        have ho' := ho
        obtain ⟨⟨id, ha⟩, hnt⟩ := ho
        have hr : routeVal .initial id = beNat id := if_neg (by decide)
        have h20 := addressed_short ha (by decide)
        obtain ⟨dcid, hd⟩ := u160_of_val (beNat id) (beNat_lt_160 h20)
        obtain ⟨c, hc, -⟩ := newConnection_ok hP ha (hd.trans hr.symm) h20
        obtain ⟨p, hp⟩ := C49_new_initial k raw addr net id ha (fun key hk => Option.not_isSome_iff_eq_none.mp fun hs =>
          hnt ⟨key, .inl ⟨_, id, ha, by decide, hk⟩, hs⟩)
        have hids : ∀ key, (({ k with printed := p } : Sock).streams key).isSome = (k.streams key).isSome := fun _ => rfl
        have hreg := registerR_exact rng { k with printed := p } (.fromConnection c)
        simp only [offers_of_ids hids] at hreg
        unfold Sock.acceptR
        rw [hp]
        simp only [hc]
        generalize ({ k with printed := p } : Sock).registerR (.fromConnection c) rng = r at hreg
        obtain ⟨o, k2, rng2⟩ := r
        dsimp only at hreg
        rcases hreg with ⟨v, hv, hu, rfl, rfl⟩ | ⟨hno, hn, ⟨w, rfl⟩, rfl⟩ | ⟨hno, hn, hu, rfl, rfl⟩
        · dsimp only
          rw [tableInsert_same]
          refine ⟨?_, fun id => ?_⟩
          · obtain ⟨pre, u, post, rfl, -, h2, h3⟩ := hv
            exact .client _ _ _ ho' u (by simp) v h2 h3
          · by_cases hid : id = v
            · subst hid
              simp [tableInsert, hc', hv]
            · simp only [tableInsert, if_neg hid]
              exact ⟨.inl, fun h => h.resolve_right fun h => hid (hu id h.2)⟩
        · exact ⟨.noRandom _ _ _ ho' hn, fun id => ⟨.inl, fun h => h.resolve_right fun h => hno id h.2⟩⟩
        · exact ⟨.crowded _ _ _ ho' hn hu, fun id => ⟨.inl, fun h => h.resolve_right fun h => hno id h.2⟩⟩
      · have : (k.acceptR P (.datagram raw addr :: net) rng) = (.panic w, k', net, rng) := by
          unfold Sock.acceptR
          rw [e]
        rw [this]
        refine ⟨.stray _ _ _ hnt hno, fun id => ?_⟩
        show (k'.streams id).isSome ↔ _
        rw [hs]
        refine ⟨.inl, fun h => h.resolve_right ?_⟩
        rintro ⟨⟨pre, r, a, post, e, h1, h2⟩, -⟩
        cases pre with
        | nil => cases e; exact hno h2
        | cons p pre =>
          simp only [List.map_cons, List.cons_append, List.cons.injEq, NetEvent.datagram.injEq] at e
          obtain ⟨⟨rfl, rfl⟩, -⟩ := e
          exact hnt (h1 p (by simp))

theorem acceptEndsR_unique {k : Sock} {rng net e e'} (h : AcceptEndsR k rng net e) (h' : AcceptEndsR k rng net e') : e = e' := by
  induction h with
  | quiet => cases h'; rfl
  | fault net => cases h'; rfl
  | taken raw addr net e h1 _ ih =>
    cases h' with
    | taken _ _ _ _ _ h2 => exact ih h2
    | stray _ _ _ h2 => exact absurd h1 h2
    | client _ _ _ h2 => exact absurd h1 h2.2
    | noRandom _ _ _ h2 => exact absurd h1 h2.2
    | crowded _ _ _ h2 => exact absurd h1 h2.2
  | stray raw addr net h1 h2 =>
    cases h' with
    | taken _ _ _ _ h3 => exact absurd h3 h1
    | stray => rfl
    | client => rfl
    | noRandom => rfl
    | crowded _ _ _ h3 => exact absurd h3 h2
  | client raw addr net h1 u hu key hk hf =>
    cases h' with
    | taken _ _ _ _ h3 => exact absurd h3 h1.2
    | stray => rfl
    | client => rfl
    | noRandom => rfl
    | crowded _ _ _ _ _ h3 =>
      have := h3 u hu key hk
      rw [hf] at this
      cases this
  | noRandom raw addr net h1 hu =>
    cases h' with
    | taken _ _ _ _ h3 => exact absurd h3 h1.2
    | stray => rfl
    | client => rfl
    | noRandom => rfl
    | crowded _ _ _ _ h3 => exact absurd hu h3
  | crowded raw addr net h1 hn hu =>
    cases h' with
    | taken _ _ _ _ h3 => exact absurd h3 h1.2
    | stray _ _ _ _ h3 => exact absurd h1 h3
    | client _ _ _ _ u h3 key hk hf =>
      have := hu u h3 key hk
      rw [hf] at this
      cases this
    | noRandom _ _ _ _ h3 => exact absurd h3 hn
    | crowded => rfl

/-- **C132, for the ending of `accept`, exactly**, on any socket, whatever the network and the random source give. -/
theorem C132_ending_exact (P : Prims) (hP : PrimLaws P) (k : Sock) (net : List NetEvent) (rng : List (Option U64)) (e : Ending) :
    endOf (k.acceptR P net rng).1 = e ↔ AcceptEndsR k rng net e :=
  ⟨fun h => h ▸ (acceptR_both hP net rng k).1, fun h => acceptEndsR_unique (acceptR_both hP net rng k).1 h⟩

/-- **C132, for the ids in the table, exactly**: those that were there and, if a client comes, the one that the random source offers before it fails. -/
theorem C132_ids_exact (P : Prims) (hP : PrimLaws P) (k : Sock) (net : List NetEvent) (rng : List (Option U64)) (id : U160) :
    ((k.acceptR P net rng).2.1.streams id).isSome ↔ (k.streams id).isSome ∨ ClientComes k net ∧ Offers k rng id := (acceptR_both hP net rng k).2 id

/-- What was given before the source failed. -/
theorem before_failure (pre pre' : List U64) {u : U64} {post post' : List (Option U64)} (e : pre.map some ++ none :: post = pre'.map some ++ some u :: post') : u ∈ pre := by
  induction pre generalizing pre' with
  | nil => cases pre' <;> cases e
  | cons v pre ih =>
    cases pre' with
    | nil =>
      simp only [List.map_cons, List.cons_append, List.map_nil, List.nil_append, List.cons.injEq, Option.some.injEq] at e
      simp [e.1]
    | cons v' pre' =>
      simp only [List.map_cons, List.cons_append, List.cons.injEq] at e
      exact List.mem_cons_of_mem _ (ih pre' e.2)

/-- Where the source fails before it has offered a free id: nothing is registered. -/
theorem C132_nothing_registered (P : Prims) (hP : PrimLaws P) (k : Sock) (net : List NetEvent) (pre : List U64) (post : List (Option U64))
    (hpre : ∀ v ∈ pre, ∀ key, cidVal key = v.toNat → (k.streams key).isSome) (id : U160) :
    ((k.acceptR P net (pre.map some ++ none :: post)).2.1.streams id).isSome ↔ (k.streams id).isSome := by
  rw [C132_ids_exact P hP]
  refine ⟨fun h => h.resolve_right ?_, .inl⟩
  rintro ⟨-, pre', u, post', e, -, h2, h3⟩
  have hu : u ∈ pre := before_failure pre pre' e
  have := hpre u hu id h2
  rw [h3] at this
  cases this

/-- The source works, or works until it fails: registration is what it is with the ids given so far, but for the panic. -/
theorem registerR_drawn (pre : List U64) (post : List (Option U64)) (k : Sock) (y : StreamState) :
    (k.registerR y (pre.map some) = ((k.register y pre).1, (k.register y pre).2.1, (k.register y pre).2.2.map some)) ∧
    (k.registerR y (pre.map some ++ none :: post)).2.1 = (k.register y pre).2.1 ∧
    ((k.register y pre).1 ≠ .blocked → (k.registerR y (pre.map some ++ none :: post)).1 = (k.register y pre).1) ∧
    ((k.register y pre).1 = .blocked → ∃ w, (k.registerR y (pre.map some ++ none :: post)).1 = .panic w) := by
  induction pre with
  | nil => exact ⟨rfl, rfl, fun h => absurd rfl h, fun _ => ⟨_, rfl⟩⟩
  | cons v pre ih =>
    simp only [List.map_cons, List.cons_append]
    unfold registerR register
    dsimp only
    split
    · exact ⟨rfl, rfl, fun _ => rfl, fun h => by cases h⟩
    · exact ih

/-- C132: while the source works nothing is different. -/
theorem C132_working (P : Prims) (k : Sock) (net : List NetEvent) (rng : List U64) :
    k.acceptR P net (rng.map some) = ((k.accept P net rng).1, (k.accept P net rng).2.1, (k.accept P net rng).2.2.1, (k.accept P net rng).2.2.2.map some) := by
  unfold acceptR accept
  generalize k.recvNewInitialDatagram net = r
  obtain ⟨o, k1, net1⟩ := r
  cases o with
  | ok d =>
    dsimp only
    cases newConnectionFor P d with
    | ok c =>
      dsimp only
      rw [(registerR_drawn rng [] k1 (.fromConnection c)).1]
      generalize k1.register (.fromConnection c) rng = r2
      obtain ⟨o2, k2, rng2⟩ := r2
      cases o2 with
      | ok id => dsimp only; cases k2.streams id <;> rfl
      | _ => rfl
    | _ => rfl
  | _ => rfl

/-- When the source fails, the socket and the network are left as they are when `accept` is given the ids so far only, and waits for more. -/
theorem C132_failing (P : Prims) (k : Sock) (net : List NetEvent) (pre : List U64) (post : List (Option U64)) :
    (k.acceptR P net (pre.map some ++ none :: post)).2.1 = (k.accept P net pre).2.1 ∧
    (k.acceptR P net (pre.map some ++ none :: post)).2.2.1 = (k.accept P net pre).2.2.1 := by
  unfold acceptR accept
  generalize k.recvNewInitialDatagram net = r
  obtain ⟨o, k1, net1⟩ := r
  cases o with
  | ok d =>
    dsimp only
    cases newConnectionFor P d with
    | ok c =>
      dsimp only
      obtain ⟨-, h1, h2, h3⟩ := registerR_drawn pre post k1 (.fromConnection c)
      generalize k1.register (.fromConnection c) pre = r2 at h1 h2 h3
      generalize k1.registerR (.fromConnection c) (pre.map some ++ none :: post) = r3 at h1 h2 h3
      obtain ⟨o2, k2, rng2⟩ := r2
      obtain ⟨o3, k3, rng3⟩ := r3
      dsimp only at h1 h2 h3
      subst h1
      cases o2 with
      | ok id => cases h2 (by simp); dsimp only; cases k3.streams id <;> exact ⟨rfl, rfl⟩
      | ioErr => cases h2 (by simp); exact ⟨rfl, rfl⟩
      | panic w => cases h2 (by simp); exact ⟨rfl, rfl⟩
      | blocked => obtain ⟨w, rfl⟩ := h3 rfl; exact ⟨rfl, rfl⟩
    | _ => exact ⟨rfl, rfl⟩
  | _ => exact ⟨rfl, rfl⟩

/-- Any random source works, or works until it fails. -/
theorem source_cases (rng : List (Option U64)) : (∃ pre : List U64, rng = pre.map some) ∨ ∃ (pre : List U64) (post : List (Option U64)), rng = pre.map some ++ none :: post := by
  induction rng with
  | nil => exact .inl ⟨[], rfl⟩
  | cons r rng ih =>
    cases r with
    | none => exact .inr ⟨[], rng, rfl⟩
    | some v =>
      rcases ih with ⟨pre, rfl⟩ | ⟨pre, post, rfl⟩
      · exact .inl ⟨v :: pre, rfl⟩
      · exact .inr ⟨v :: pre, post, rfl⟩

/-- **C132, for the connections there were**: they have gained the datagrams for them that were taken from the network, nothing else of them has changed and
none is gone. A connection that is new has no datagrams, and answers to the id it is under. -/
theorem C132_connections (P : Prims) (k : Sock) (net : List NetEvent) (rng : List (Option U64)) :
    ∃ used, net = used ++ (k.acceptR P net rng).2.2.1 ∧
      (∀ key x, k.streams key = some x → (k.acceptR P net rng).2.1.streams key = some { x with queue := x.queue ++ destined key (arrived used) }) ∧
      ∀ key y, k.streams key = none → (k.acceptR P net rng).2.1.streams key = some y → y.queue = [] ∧ y.connection.scid = some (key, 8) := by
  have hp : ∃ pre, (k.acceptR P net rng).2.1 = (k.accept P net pre).2.1 ∧ (k.acceptR P net rng).2.2.1 = (k.accept P net pre).2.2.1 := by
    rcases source_cases rng with ⟨pre, rfl⟩ | ⟨pre, post, rfl⟩
    · exact ⟨pre, by rw [C132_working], by rw [C132_working]⟩
    · exact ⟨pre, C132_failing P k net pre post⟩
  obtain ⟨pre, e1, e2⟩ := hp
  rw [e1, e2]
  obtain ⟨used, h0, h1, -⟩ := C116_accept_exact P k net pre
  refine ⟨used, h0, h1, fun key y hn hy => ?_⟩
  exact ((C45_accept P k net pre).2 key key y y hn hn hy hy).2

/-! ### Any number of threads -/

/-- What happened, other than panics. -/
def deeds (tr : List (Nat × Label)) : List (Nat × Label) := tr.filter fun e => match e.2 with | .panicked => false | _ => true

/-- The second system is the first, but for threads that have panicked in the first: in the second they are about to draw an id, and hold no lock. -/
structure Delayed (s s0 : Sys) : Prop where
  sock : s.sock = s0.sock
  poisoned : s.poisoned = s0.poisoned
  pc : ∀ t, s.pc t = s0.pc t ∨ s.pc t = .dead ∧ ∃ x, s0.pc t = .aRandom x

theorem Delayed.free {s s0 : Sys} (h : Delayed s s0) (l m) : s.Free l m ↔ s0.Free l m := by
  constructor
  · intro hf t m' hm
    rcases h.pc t with e | ⟨-, x, e⟩
    · exact hf t m' (e ▸ hm)
    · rw [e] at hm; cases hm
  · intro hf t m' hm
    rcases h.pc t with e | ⟨e, -⟩
    · exact hf t m' (e ▸ hm)
    · rw [e] at hm; cases hm

theorem Delayed.goto {s s0 : Sys} (h : Delayed s s0) (t p) : Delayed (s.goto t p) (s0.goto t p) where
  sock := h.sock
  poisoned := h.poisoned
  pc := fun t' => by
    show (if t' = t then p else s.pc t') = (if t' = t then p else s0.pc t') ∨ (if t' = t then p else s.pc t') = .dead ∧ ∃ x, (if t' = t then p else s0.pc t') = .aRandom x
    split
    · exact .inl rfl
    · exact h.pc t'

theorem Delayed.kill {s s0 : Sys} (h : Delayed s s0) {t} (e : s.pc t = s0.pc t) : Delayed (s.kill t) (s0.kill t) where
  sock := h.sock
  poisoned := by simp only [Sys.kill, h.poisoned, e]
  pc := (h.goto t .dead).pc

/-- Dead threads do nothing. -/
theorem dead_still {s s' : Sys} {t l} (h : Sys.Step P bp s t l s') : s.pc t ≠ .dead := by
  intro hd
  cases h with
  | act _ p k ha => rw [hd] at ha; cases ha
  | acquire lk m p hw => rw [hd] at hw; cases hw
  | poisoned lk m p hw => rw [hd] at hw; cases hw
  | panic hp => rw [hd] at hp; cases hp

/-- A step of a thread that is at the same place in both systems. -/
theorem Delayed.step {s s0 s' : Sys} {t l} (h : Delayed s s0) (e : s.pc t = s0.pc t) (hs : Sys.Step P bp s t l s') :
    ∃ s0', Sys.Step P bp s0 t l s0' ∧ Delayed s' s0' := by
  cases hs with
  | act _ p k ha =>
    exact ⟨_, .act s0 t l p k (by rw [← e, ← h.sock]; exact ha), ⟨rfl, h.poisoned, (h.goto t p).pc⟩⟩
  | acquire lk m p hw hf hp =>
    exact ⟨_, .acquire s0 t lk m p (e ▸ hw) ((h.free lk m).mp hf) (h.poisoned ▸ hp), h.goto t p⟩
  | poisoned lk m p hw hf hp =>
    exact ⟨_, .poisoned s0 t lk m p (e ▸ hw) ((h.free lk m).mp hf) (h.poisoned ▸ hp), h.kill e⟩
  | panic hp => exact ⟨_, .panic s0 t (by rw [← e, ← h.sock]; exact hp), h.kill e⟩

theorem Delayed.back {s s0 s0' : Sys} {t l} (h : Delayed s s0) (e : s.pc t = s0.pc t) (hs : Sys.Step P bp s0 t l s0') : ∃ s', Sys.Step P bp s t l s' := by
  cases hs with
  | act _ p k ha => exact ⟨_, .act s t l p k (by rw [e, h.sock]; exact ha)⟩
  | acquire lk m p hw hf hp => exact ⟨_, .acquire s t lk m p (e ▸ hw) ((h.free lk m).mpr hf) (h.poisoned ▸ hp)⟩
  | poisoned lk m p hw hf hp => exact ⟨_, .poisoned s t lk m p (e ▸ hw) ((h.free lk m).mpr hf) (h.poisoned ▸ hp)⟩
  | panic hp => exact ⟨_, .panic s t (by rw [e, h.sock]; exact hp)⟩

/-- **C132, for any number of threads**: to everybody else, a thread for which the random source failed is like one that is never given the processor again
just before it draws an id. There is a run in which the source never fails that has the same deeds in the same order and ends with the same table, log and
locks, and with every thread in the same place but for those that died of the failure. -/
theorem C132_delayed {tr s} (h : Sys.RunR P bp Sys.init tr s) : ∃ tr0 s0, Sys.Run P bp Sys.init tr0 s0 ∧ deeds tr0 = deeds tr ∧ tr0.Sublist tr ∧ Delayed s s0 := by
  induction h with
  | nil => exact ⟨[], _, .nil _, rfl, .slnil, ⟨rfl, rfl, fun _ => .inl rfl⟩⟩
  | @snoc tr s t l s' _ hs ih =>
    obtain ⟨tr0, s0, hr, ht, hsub, hd⟩ := ih
    cases hs with
    | step h =>
      have e : s.pc t = s0.pc t := (hd.pc t).resolve_right fun h' => dead_still h h'.1
      obtain ⟨s0', h1, h2⟩ := hd.step e h
      exact ⟨_, s0', hr.snoc h1, by simp only [deeds, List.filter_append] at ht ⊢; rw [ht], hsub.append (.refl _), h2⟩
    | noRandom h =>
      rename_i x
      refine ⟨tr0, s0, hr, ?_, hsub.trans (List.sublist_append_left ..), ⟨hd.sock, ?_, fun t' => ?_⟩⟩
      · rw [ht]; simp [deeds]
      · rw [← hd.poisoned]
        funext l
        simp [Sys.kill, h, Pc.held]
      · show (if t' = t then Pc.dead else s.pc t') = _ ∨ (if t' = t then Pc.dead else s.pc t') = .dead ∧ _
        by_cases e : t' = t
        · subst e
          rw [if_pos rfl]
          exact .inr ⟨rfl, x, ((hd.pc t').resolve_right fun h' => by rw [h] at h'; cases h'.1) ▸ h⟩
        · rw [if_neg e]
          exact hd.pc t'

/-- Runs in which the source never fails are among those in which it may. -/
theorem C132_never {s0 tr s} (h : Sys.Run P bp s0 tr s) : Sys.RunR P bp s0 tr s := by
  induction h with
  | nil => exact .nil _
  | snoc _ hs ih => exact .snoc ih (.step hs)

/-- C132, full statement: if the random source fails, for whichever threads and however often, no lock is poisoned, locks exclude as ever, a connection answers
to the id it is under, a thread that waits for a lock other than the socket's is waiting for one that can go on, and the failure of one thread
changes neither the table nor any other thread. -/
def C132For (P : Prims) : Prop := ∀ (bp : Profile) (tr : List (Nat × Label)) (s : Sys), Sys.RunR P bp Sys.init tr s →
  (∀ l, s.poisoned l = false) ∧
  (∀ t t' l m, (l, Mode.write) ∈ (s.pc t).held → (l, m) ∈ (s.pc t').held → t = t') ∧
  (∀ key x, s.sock.streams key = some x → ∃ len, x.connection.scid = some (key, len)) ∧
  (∀ t l m p, (s.pc t).wants = some (l, m, p) → l ≠ .socket → ∃ t' e s', Sys.StepR P bp s t' e s' ∧ (t' = t ∨ ∃ l' m', (l', m') ∈ (s.pc t').held ∧ l' ≠ .socket)) ∧
  ∀ t x, s.pc t = .aRandom x → (s.kill t).sock = s.sock ∧ (s.kill t).poisoned = s.poisoned ∧ ∀ t', t' ≠ t → (s.kill t).pc t' = s.pc t'
/-- The claim, for all algorithms that obey the laws. -/
def C132Statement : Prop := ∀ P, PrimLaws P → C132For P

theorem C132_all : C132Statement := by
  intro P hP bp tr s hr
  obtain ⟨tr0, s0, h0, -, -, hd⟩ := C132_delayed hr
  have held : ∀ t l m, (l, m) ∈ (s.pc t).held → (l, m) ∈ (s0.pc t).held ∧ s.pc t = s0.pc t := fun t l m h => by
    rcases hd.pc t with e | ⟨e, -⟩
    · exact ⟨e ▸ h, e⟩
    · rw [e] at h; cases h
  refine ⟨fun l => hd.poisoned ▸ C54_never_poisoned h0 l, fun t t' l m h h' => C54_exclusive h0 t t' l m (held _ _ _ h).1 (held _ _ _ h').1, ?_, ?_, ?_⟩
  · intro key x hx
    exact ⟨8, (C46_own_id h0 key x (hd.sock ▸ hx)).1⟩
  · intro t l m p hw hl
    have e : s.pc t = s0.pc t := (hd.pc t).resolve_right fun h => by rw [h.1] at hw; cases hw
    obtain ⟨t', e', s', hs, hh⟩ := C54_progress h0 t l m p (e ▸ hw) hl
    have e2 : s.pc t' = s0.pc t' := by
      rcases hh with rfl | ⟨l', m', hm, -⟩
      · exact e
      · exact (hd.pc t').resolve_right fun h => by obtain ⟨-, x, h⟩ := h; rw [h] at hm; cases hm
    obtain ⟨s'', hs'⟩ := hd.back e2 hs
    refine ⟨t', e', s'', .step hs', ?_⟩
    rcases hh with h | ⟨l', m', hm, -, hl'⟩
    · exact .inl h
    · exact .inr ⟨l', m', e2 ▸ hm, hl'⟩
  · intro t x h
    refine ⟨rfl, ?_, fun t' ht => ?_⟩
    · funext l
      simp [Sys.kill, h, Pc.held]
    · simp [Sys.kill, Sys.goto, ht]

/-- A client at an empty socket: the source fails at once, and the call panics with nothing registered; it gives 7 first, and the connection is there. -/
example : endOf (Sock.bind.acceptR toy [.datagram exInitial.data 1] [none, some 7]).1 = .dies ∧
    (∀ id, ((Sock.bind.acceptR toy [.datagram exInitial.data 1] [none, some 7]).2.1.streams id).isSome = false) ∧
    ((Sock.bind.acceptR toy [.datagram exInitial.data 1] [some 7, none]).2.1.streams (.ofU64 7)).isSome := by
  have ho : Opens Sock.bind (seen exInitial.data 1) := ⟨⟨_, exInitial_addressed⟩, by
    rintro ⟨key, -, h⟩
    cases h⟩
  refine ⟨(C132_ending_exact toy toy_laws _ _ _ _).mpr (.noRandom _ _ _ ho (by simp)), fun id => ?_, ?_⟩
  · rw [Bool.eq_false_iff]
    exact fun h => by cases (C132_nothing_registered toy toy_laws Sock.bind [.datagram exInitial.data 1] [] [some 7] (by simp) id).mp h
  · exact (C132_ids_exact toy toy_laws _ _ _ _).mpr (.inr ⟨⟨[], _, _, [], rfl, by simp, ho⟩, ⟨[], 7, [none], rfl, by simp, by decide +kernel, rfl⟩⟩)

/-- A run in which a client's datagram is received, a connection is made for it, and the source fails. -/
example : ∃ tr s, Sys.RunR toy .debug Sys.init tr s ∧ s.pc 0 = .dead ∧ (0, Label.opened (seen exInitial.data 1)) ∈ deeds tr := by
  let w : Env := ⟨64, true, true⟩
  have hn : ∀ (k : Sock) (p : Pc), ¬ p.FailsToPrint w .debug k := fun k p => not_fails rfl rfl k p
  have h0 : Solo w toy .debug .idle Sock.bind [] := ⟨Sys.init, .nil _, rfl, fun _ _ => rfl, fun _ => rfl, rfl⟩
  have h1 := h0.act (.callAccept _) (hn _ _)
  have h2 := h1.acquire rfl (by simp [Pc.held]) (hn _ _)
  have h3 := h2.act (.recv _ exInitial.data 1) (hn _ _)
  have h4 := h3.acquire rfl (by simp [Pc.held]) (hn _ _)
  have h5 := h4.act (.flag _ _) (hn _ _)
  have h6 := h5.act (.noPrint _ _) (hn _ _)
  have ha : Addressed (seen exInitial.data 1).data .initial [0, 0, 0, 0, 0, 0, 0, 5] := exInitial_addressed
  obtain ⟨h, s', he, ht, -⟩ := addressed_header ha
  obtain ⟨c, hc, -⟩ := newConnection_ok toy_laws (key := .ofU64 5) ha (by decide +kernel) (by decide)
  have h7 := h6.act (.parseInitial _ _ h (congrArg Prod.fst he) ht) (hn _ _)
  have h8 := h7.acquire rfl (by simp [Pc.held]) (hn _ _)
  have h9 := h8.act (.checkNew _ _ _ rfl) (hn _ _)
  obtain ⟨s, hr, hp, -⟩ := h9.act (.new _ _ c hc) (hn _ _)
  exact ⟨_, _, (C132_never ((C101_writable_partial rfl rfl _ _).mp hr)).snoc (.noRandom hp), by simp [Sys.kill, Sys.goto], by simp [deeds]; rfl⟩

end QuicSea
