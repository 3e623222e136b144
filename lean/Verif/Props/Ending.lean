import Verif.Props.ExactRouting
import Verif.Props.Atomic
/-
C130: how the calls of the public interface end.
-/
namespace Spec

/-- How a call ends: it returns what it was called for, returns an I/O error, panics, or is still waiting when its inputs are used up. -/
inductive Ending where
  | returns
  | fails
  | dies
  | waits
deriving DecidableEq, Repr

end Spec

namespace QuicSea
open Spec Sock
variable {P : Prims}

/-- The ending of an outcome. -/
def endOf : Io α → Ending
  | .ok _ => .returns
  | .ioErr => .fails
  | .panic _ => .dies
  | .blocked => .waits

/-- How waiting for a client must end, by what the network and the random source give. Datagrams that a connection takes are passed over. Of the others the
first decides: one that opens no connection brings the call down, and so does one that opens a connection as soon as an id is found for it. -/
inductive AcceptEnds (k : Sock) (rng : List U64) : List NetEvent → Ending → Prop where
  | quiet : AcceptEnds k rng [] .waits
  | fault (net) : AcceptEnds k rng (.ioError :: net) .fails
  | taken (raw addr net e) (h : Taken k (seen raw addr)) (hn : AcceptEnds k rng net e) : AcceptEnds k rng (.datagram raw addr :: net) e
  | stray (raw addr net) (h : ¬ Taken k (seen raw addr)) (ho : ¬ Opens k (seen raw addr)) : AcceptEnds k rng (.datagram raw addr :: net) .dies
  | client (raw addr net) (h : Opens k (seen raw addr)) (u : U64) (hu : u ∈ rng) (key : U160) (hk : cidVal key = u.toNat) (hf : k.streams key = none) :
      AcceptEnds k rng (.datagram raw addr :: net) .dies
  | crowded (raw addr net) (h : Opens k (seen raw addr)) (hu : ∀ u ∈ rng, ∀ key, cidVal key = u.toNat → (k.streams key).isSome) :
      AcceptEnds k rng (.datagram raw addr :: net) .waits

/-- What was taken, what opens a connection and which ids are free depends on the ids in the table only. -/
theorem acceptEnds_of_ids {k k' : Sock} (h : ∀ key, (k'.streams key).isSome = (k.streams key).isSome) {rng net e} (he : AcceptEnds k' rng net e) :
    AcceptEnds k rng net e := by
  have ht : ∀ d, Taken k' d ↔ Taken k d := fun d => by simp only [Taken, h]
  have ho : ∀ d, Opens k' d ↔ Opens k d := fun d => by simp only [Opens, ht]
  have hf : ∀ key, k'.streams key = none → k.streams key = none := fun key hn => by
    have := h key
    rw [hn] at this
    exact Option.not_isSome_iff_eq_none.mp (by rw [← this]; simp)
  induction he with
  | quiet => exact .quiet
  | fault net => exact .fault net
  | taken raw addr net e h1 _ ih => exact .taken _ _ _ _ ((ht _).mp h1) ih
  | stray raw addr net h1 h2 => exact .stray _ _ _ (fun x => h1 ((ht _).mpr x)) (fun x => h2 ((ho _).mpr x))
  | client raw addr net h1 u hu key hk h2 => exact .client _ _ _ ((ho _).mp h1) u hu key hk (hf key h2)
  | crowded raw addr net h1 hu => exact .crowded _ _ _ ((ho _).mp h1) (fun u h2 key hk => by rw [← h key]; exact hu u h2 key hk)

/-- Registration ends by an id that is free, or waits because none is. -/
theorem register_ends (rng : List U64) (k : Sock) (y : StreamState) :
    ((∃ u ∈ rng, k.streams (.ofU64 u) = none) ∧ ∃ id, (k.register y rng).1 = .ok id) ∨
    ((∀ u ∈ rng, (k.streams (.ofU64 u)).isSome) ∧ (k.register y rng).1 = .blocked) := by
  induction rng with
  | nil => exact .inr ⟨by simp, rfl⟩
  | cons r rng ih =>
    unfold register
    dsimp only
    cases hx : k.streams (.ofU64 r) with
    | none => exact .inl ⟨⟨r, by simp, hx⟩, _, rfl⟩
    | some x =>
      simp only [Option.isNone_some, Bool.false_eq_true, if_false]
      rcases ih with ⟨⟨u, hu, hf⟩, h⟩ | ⟨hu, h⟩
      · exact .inl ⟨⟨u, List.mem_cons_of_mem _ hu, hf⟩, h⟩
      · refine .inr ⟨fun u h' => ?_, h⟩
        rcases List.mem_cons.mp h' with rfl | h'
        · rw [hx]; rfl
        · exact hu u h'

theorem accept_ends (hP : PrimLaws P) (net : List NetEvent) (rng : List U64) (k : Sock) : AcceptEnds k rng net (endOf (k.accept P net rng).1) := by
  induction net generalizing k with
  | nil => exact .quiet
  | cons e net ih =>
    cases e with
    | ioError => exact .fault net
    | datagram raw addr =>
      rcases loop_turn k raw addr net with ⟨ht, k', e, hs⟩ | ⟨ho, -⟩ | ⟨hnt, hno, w, k', e, -⟩
      · refine .taken _ _ _ _ ht (acceptEnds_of_ids hs ?_)
        have : (k.accept P (.datagram raw addr :: net) rng) = k'.accept P net rng := by
          unfold Sock.accept
          rw [e]
        rw [this]
        exact ih k'
      · obtain ⟨⟨id, ha⟩, hnt⟩ := ho
        have hr : routeVal .initial id = beNat id := if_neg (by decide)
        have h20 := addressed_short ha (by decide)
        obtain ⟨dcid, hd⟩ := u160_of_val (beNat id) (beNat_lt_160 h20)
        obtain ⟨c, hc, -⟩ := newConnection_ok hP ha (hd.trans hr.symm) h20
        obtain ⟨p, hp⟩ := C49_new_initial k raw addr net id ha (fun key hk => Option.not_isSome_iff_eq_none.mp fun hs =>
          hnt ⟨key, .inl ⟨_, id, ha, by decide, hk⟩, hs⟩)
        have hreg := register_ends rng { k with printed := p } (.fromConnection c)
        unfold Sock.accept
        rw [hp]
        simp only [hc]
        generalize ({ k with printed := p } : Sock).register (.fromConnection c) rng = r at hreg
        obtain ⟨o, k2, rng2⟩ := r
        rcases hreg with ⟨⟨u, hu, hf⟩, v, rfl⟩ | ⟨hu, rfl⟩
        · have hcl := AcceptEnds.client (k := k) (rng := rng) raw addr net ⟨⟨id, ha⟩, hnt⟩ u hu (.ofU64 u) (cidVal_ofU64 u) hf
          cases h : k2.streams v <;> simp only [h] <;> exact hcl
        · exact .crowded _ _ _ ⟨⟨id, ha⟩, hnt⟩ (fun u hu' key hk => by
            have : U160.ofU64 u = key := cidVal_inj (by rw [cidVal_ofU64, hk])
            rw [← this]; exact hu u hu')
      · have : (k.accept P (.datagram raw addr :: net) rng).1 = .panic w := by
          unfold Sock.accept
          rw [e]
        rw [this]
        exact .stray _ _ _ hnt hno

theorem acceptEnds_unique {k : Sock} {rng net e e'} (h : AcceptEnds k rng net e) (h' : AcceptEnds k rng net e') : e = e' := by
  induction h with
  | quiet => cases h'; rfl
  | fault net => cases h'; rfl
  | taken raw addr net e h1 _ ih =>
    cases h' with
    | taken _ _ _ _ _ h2 => exact ih h2
    | stray _ _ _ h2 => exact absurd h1 h2
    | client _ _ _ h2 => exact absurd h1 h2.2
    | crowded _ _ _ h2 => exact absurd h1 h2.2
  | stray raw addr net h1 h2 =>
    cases h' with
    | taken _ _ _ _ h3 => exact absurd h3 h1
    | stray => rfl
    | client => rfl
    | crowded _ _ _ h3 => exact absurd h3 h2
  | client raw addr net h1 u hu key hk hf =>
    cases h' with
    | taken _ _ _ _ h3 => exact absurd h3 h1.2
    | stray => rfl
    | client => rfl
    | crowded _ _ _ _ h3 =>
      have := h3 u hu key hk
      rw [hf] at this
      cases this
  | crowded raw addr net h1 hu =>
    cases h' with
    | taken _ _ _ _ h3 => exact absurd h3 h1.2
    | stray _ _ _ _ h3 => exact absurd h1 h3
    | client _ _ _ _ u h3 key hk hf =>
      have := hu u h3 key hk
      rw [hf] at this
      cases this
    | crowded => rfl

/-- C130, full statement: no call of the public interface panics. -/
def C130For (P : Prims) : Prop := ∀ (k : Sock), endOf (QuicSocket.connect k) ≠ .dies ∧
  ∀ (net : List NetEvent) (rng : List U64), endOf (QuicSocket.accept P k net rng).1 ≠ .dies
/-- The claim, for all algorithms that obey the laws. -/
def C130Statement : Prop := ∀ P, PrimLaws P → C130For P

/-- **C130, for `connect`**: it panics on every socket. -/
theorem C130_connect (k : Sock) : endOf (QuicSocket.connect k) = .dies ∧ endOf k.connect = .dies := ⟨rfl, rfl⟩

theorem pub_end (P : Prims) (k : Sock) (net : List NetEvent) (rng : List U64) :
    endOf (QuicSocket.accept P k net rng).1 = endOf (k.accept P net rng).1 ∧ (QuicSocket.accept P k net rng).2 = (k.accept P net rng).2 := by
  unfold QuicSocket.accept
  generalize k.accept P net rng = r
  obtain ⟨o, r⟩ := r
  cases o <;> exact ⟨rfl, rfl⟩

/-- **C130, exactly, for `accept`**, on any socket, whatever the network and the random source give. -/
theorem C130_accept_exact (P : Prims) (hP : PrimLaws P) (k : Sock) (net : List NetEvent) (rng : List U64) (e : Ending) :
    endOf (QuicSocket.accept P k net rng).1 = e ↔ AcceptEnds k rng net e := by
  rw [(pub_end P k net rng).1]
  exact ⟨fun h => h ▸ accept_ends hP net rng k, fun h => acceptEnds_unique (accept_ends hP net rng k) h⟩

/-- A panic of `accept`, in terms of the datagrams: the network gave datagrams that connections take, then one that none takes, before any I/O error, and an id
was found if this one opens a connection. -/
theorem C130_accept_dies (P : Prims) (hP : PrimLaws P) (k : Sock) (net : List NetEvent) (rng : List U64) :
    endOf (QuicSocket.accept P k net rng).1 = .dies ↔ ∃ (pre : List (Bytes × Nat)) (raw : Bytes) (addr : Nat) (post : List NetEvent),
      net = pre.map (fun r => .datagram r.1 r.2) ++ .datagram raw addr :: post ∧ (∀ r ∈ pre, Taken k (seen r.1 r.2)) ∧ ¬ Taken k (seen raw addr) ∧
      (Opens k (seen raw addr) → ∃ u ∈ rng, ∃ key, cidVal key = u.toNat ∧ k.streams key = none) := by
  rw [C130_accept_exact P hP]
  constructor
  · intro h
    generalize he : Ending.dies = e at h
    induction h with
    | quiet => cases he
    | fault => cases he
    | taken raw addr net e h1 _ ih =>
      obtain ⟨pre, r2, a2, post, rfl, h2, h3, h4⟩ := ih he
      refine ⟨(raw, addr) :: pre, r2, a2, post, rfl, fun r hr => ?_, h3, h4⟩
      rcases List.mem_cons.mp hr with rfl | hr
      · exact h1
      · exact h2 r hr
    | stray raw addr net h1 h2 => exact ⟨[], raw, addr, net, rfl, by simp, h1, fun x => absurd x h2⟩
    | client raw addr net h1 u hu key hk hf => exact ⟨[], raw, addr, net, rfl, by simp, h1.2, fun _ => ⟨u, hu, key, hk, hf⟩⟩
    | crowded => cases he
  · rintro ⟨pre, raw, addr, post, rfl, h1, h2, h3⟩
    induction pre with
    | nil =>
      by_cases ho : Opens k (seen raw addr)
      · obtain ⟨u, hu, key, hk, hf⟩ := h3 ho
        exact .client _ _ _ ho u hu key hk hf
      · exact .stray _ _ _ h2 ho
    | cons r pre ih => exact .taken _ _ _ _ (h1 r List.mem_cons_self) (ih fun q hq => h1 q (List.mem_cons_of_mem _ hq))

/-- C130, the part that holds: `accept` does not panic as long as every datagram is taken by a connection. Missing: any other datagram, and `connect`. -/
theorem C130_taken_partial (P : Prims) (hP : PrimLaws P) (k : Sock) (net : List NetEvent) (rng : List U64)
    (h : ∀ raw addr, .datagram raw addr ∈ net → Taken k (seen raw addr)) : endOf (QuicSocket.accept P k net rng).1 ≠ .dies := by
  intro hd
  obtain ⟨pre, raw, addr, post, rfl, -, h2, -⟩ := (C130_accept_dies P hP k net rng).mp hd
  exact h2 (h raw addr (by simp))

/-- With no client ever returned, only an I/O error gives the caller its thread back. -/
theorem C130_only_faults (P : Prims) (hP : PrimLaws P) (k : Sock) (net : List NetEvent) (rng : List U64) :
    endOf (QuicSocket.accept P k net rng).1 ≠ .returns ∧
    (endOf (QuicSocket.accept P k net rng).1 = .fails ↔ ∃ (pre : List (Bytes × Nat)) (post : List NetEvent),
      net = pre.map (fun r => .datagram r.1 r.2) ++ .ioError :: post ∧ ∀ r ∈ pre, Taken k (seen r.1 r.2)) := by
  constructor
  · rw [Ne, C130_accept_exact P hP]
    intro h
    generalize he : Ending.returns = e at h
    induction h with
    | taken _ _ _ _ _ _ ih => exact ih he
    | _ => cases he
  · rw [C130_accept_exact P hP]
    constructor
    · intro h
      generalize he : Ending.fails = e at h
      induction h with
      | fault net => exact ⟨[], net, rfl, by simp⟩
      | taken raw addr net e h1 _ ih =>
        obtain ⟨pre, post, rfl, h2⟩ := ih he
        refine ⟨(raw, addr) :: pre, post, rfl, fun r hr => ?_⟩
        rcases List.mem_cons.mp hr with rfl | hr
        · exact h1
        · exact h2 r hr
      | _ => cases he
    · rintro ⟨pre, post, rfl, h1⟩
      induction pre with
      | nil => exact .fault post
      | cons r pre ih => exact .taken _ _ _ _ (h1 r List.mem_cons_self) (ih fun q hq => h1 q (List.mem_cons_of_mem _ hq))

theorem C130_false_any (P : Prims) : ¬ C130For P := fun h => (h Sock.bind).1 (C130_connect _).1
theorem C130_false : ¬ C130Statement := fun h => C130_false_any Spec.toy (h _ Spec.toy_laws)

/-- A connection takes the short-header datagram for id 5, then the I/O error is returned. -/
example : endOf (QuicSocket.accept toy exTable [.datagram exShort.data 1, .ioError] []).1 = .fails :=
  (C130_only_faults toy toy_laws exTable _ []).2.mpr ⟨[(exShort.data, 1)], [], rfl, by
    intro r hr
    rw [List.mem_singleton.mp hr]
    exact ⟨.ofU64 5, .inl ⟨_, _, exShort_addressed, by decide, by decide +kernel⟩, by decide +kernel⟩⟩
/-- A client at an empty socket: the call waits for a random id, and panics once it has one. -/
example : endOf (QuicSocket.accept toy Sock.bind [.datagram exInitial.data 1] []).1 = .waits ∧
    endOf (QuicSocket.accept toy Sock.bind [.datagram exInitial.data 1] [7]).1 = .dies := by
  have ho : Opens Sock.bind (seen exInitial.data 1) := ⟨⟨_, exInitial_addressed⟩, by
    rintro ⟨key, -, h⟩
    cases h⟩
  exact ⟨(C130_accept_exact toy toy_laws _ _ _ _).mpr (.crowded _ _ _ ho (by simp)),
    (C130_accept_exact toy toy_laws _ _ _ _).mpr (.client _ _ _ ho 7 (by simp) (.ofU64 7) (by decide +kernel) rfl)⟩

end QuicSea
