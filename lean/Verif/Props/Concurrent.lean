import Verif.Proofs.Simulate
import Verif.Props.Routing
/-
C44, C45, C46, C54: any number of threads on one socket, under any schedule.

`Sys.Run P bp Sys.init tr s`: the state `s` is reached from a new socket by some schedule of some calls of some threads with some
network traffic and random numbers; `tr` lists what happened.
-/
namespace QuicSea
open Spec

variable {P : Prims} {bp : Profile}

/-! ## C45 -/

/-- C45: in one step of any thread, a connection in the table keeps its state and its queued datagrams. It can only get one
more datagram (from a thread that is routing a datagram with this destination id), or be removed (by a thread in
`drop_connection` with this id). -/
theorem C45_existing {tr s t l s'} (hr : Sys.Run P bp Sys.init tr s) (hs : Sys.Step P bp s t l s') (key : U160) (x : StreamState)
    (hx : s.sock.streams key = some x) :
    s'.sock.streams key = some x
    ∨ (∃ d, s.pc t = .aSend d key ∧ s'.sock.streams key = some { x with queue := x.queue ++ [d] })
    ∨ (s.pc t = .dRemove key ∧ s'.sock.streams key = none) := by
  have hi := inv_reachable hr
  cases hs with
  | act _ p k ha =>
    show k.streams key = _ ∨ (∃ d, _ ∧ k.streams key = _) ∨ (_ ∧ k.streams key = _)
    cases act_table ha with
    | registered key' st hp h =>
      left
      rw [h, tableInsert_other, hx]
      rintro rfl
      have := hi.pcOk t
      rw [hp] at this
      rw [this.2.2] at hx
      cases hx
    | removed key' hp h =>
      by_cases e : key = key'
      · subst e
        exact .inr (.inr ⟨hp, by rw [h, tableRemove_same]⟩)
      · exact .inl (by rw [h, tableRemove_other e, hx])
    | sent key' d x' hp hx' h =>
      by_cases e : key = key'
      · subst e
        rw [hx] at hx'
        cases hx'
        exact .inr (.inl ⟨d, hp, by rw [h, tableInsert_same]⟩)
      · exact .inl (by rw [h, tableInsert_other e, hx])
    | none _ h => exact .inl (by rw [h, hx])
  | acquire => exact .inl hx
  | poisoned => exact .inl hx
  | panic => exact .inl hx

/-- C45: a connection that appears in a step is new: the id was free, the queue is empty, its state is that of a new server
connection with the id as source id; and all other ids keep exactly what they had. -/
theorem C45_new {tr s t l s'} (hr : Sys.Run P bp Sys.init tr s) (hs : Sys.Step P bp s t l s') (key : U160) (x : StreamState)
    (hn : s.sock.streams key = none) (hx : s'.sock.streams key = some x) :
    x.queue = [] ∧ (∃ c dcid len, Connection.new P true .v1 dcid len = .ok c ∧ x.connection = { c with scid := some (key, 8) })
    ∧ (∃ v : U64, cidVal key = v.toNat) ∧ SameBut s.sock s'.sock key := by
  have hi := inv_reachable hr
  cases hs with
  | act _ p k ha =>
    have hx : k.streams key = some x := hx
    cases act_table ha with
    | registered key' st hp h =>
      by_cases e : key = key'
      · subst e
        rw [h, tableInsert_same] at hx
        cases hx
        have := hi.pcOk t
        rw [hp] at this
        obtain ⟨h1, ⟨⟨v, hv⟩, c, ⟨dcid, len, hc⟩, he⟩, -⟩ := this
        refine ⟨h1, ⟨c, dcid, len, hc, he⟩, ⟨v, by rw [hv, cidVal_ofU64]⟩, fun key' hne => ?_⟩
        show k.streams key' = _
        rw [h, tableInsert_other hne]
      · rw [h, tableInsert_other e, hn] at hx
        cases hx
    | removed key' hp h =>
      rw [h, tableRemove] at hx
      split at hx
      · cases hx
      · rw [hn] at hx; cases hx
    | sent key' d x' hp hx' h =>
      by_cases e : key = key'
      · subst e; rw [hn] at hx'; cases hx'
      · rw [h, tableInsert_other e, hn] at hx
        cases hx
    | none _ h => rw [h, hn] at hx; cases hx
  | acquire => rw [show (s.goto t _).sock = s.sock from rfl, hn] at hx; cases hx
  | poisoned => rw [show (s.kill t).sock = s.sock from rfl, hn] at hx; cases hx
  | panic => rw [show (s.kill t).sock = s.sock from rfl, hn] at hx; cases hx

/-- Did this happen in the trace? -/
def Dropped (key : U160) (tr : List (Nat × Label)) : Prop := ∃ t, (t, Label.removed key) ∈ tr

/-- The label `removed` is exactly `drop_connection` of the id taking effect. -/
theorem removed_iff {s t l s'} (hs : Sys.Step P bp s t l s') (key : U160) : l = .removed key ↔ s.pc t = .dRemove key := by
  cases hs with
  | act _ p k ha =>
    generalize hq : s.pc t = q at ha
    cases ha <;> simp
  | acquire _ m p hw => constructor
                        · intro h; cases h
                        · intro h; rw [h] at hw; cases hw
  | poisoned _ m p hw => constructor
                         · intro h; cases h
                         · intro h; rw [h] at hw; cases hw
  | panic h =>
    constructor
    · intro h; cases h
    · intro e; rw [e] at h; cases h

/-- C45, over any further execution: until it is dropped, a connection stays in the table, with the same state, and its queue only
grows. -/
theorem C45_survives {tr s tr' s'} (hr : Sys.Run P bp Sys.init tr s) (hr' : Sys.Run P bp s tr' s') (key : U160) (x : StreamState)
    (hx : s.sock.streams key = some x) (hd : ¬ Dropped key tr') :
    ∃ more, s'.sock.streams key = some { queue := x.queue ++ more, connection := x.connection } := by
  induction hr' with
  | nil => exact ⟨[], by simpa using hx⟩
  | @snoc tr2 s2 t l s3 hp hs ih =>
    obtain ⟨more, hm⟩ := ih (fun ⟨t, h⟩ => hd ⟨t, List.mem_append_left _ h⟩)
    rcases C45_existing (hr.append hp) hs key _ hm with h | ⟨d, -, h⟩ | ⟨h, -⟩
    · exact ⟨more, h⟩
    · exact ⟨more ++ [d], by rw [h]; simp⟩
    · exact absurd ⟨t, List.mem_append_right _ (by rw [(removed_iff hs key).mpr h]; exact List.mem_singleton.mpr rfl)⟩ hd

/-! ## C44 -/

/-- The datagrams routed to `key`, in order. -/
def routedTo (key : U160) : List (Nat × Label) → List Datagram
  | [] => []
  | (_, .sent key' d) :: tr => if key' = key then d :: routedTo key tr else routedTo key tr
  | _ :: tr => routedTo key tr

theorem routedTo_append (key) (a b) : routedTo key (a ++ b) = routedTo key a ++ routedTo key b := by
  induction a with
  | nil => rfl
  | cons e a ih =>
    obtain ⟨t, l⟩ := e
    cases l <;> simp only [List.cons_append, routedTo, ih]
    split <;> simp

/-- C44: until it is dropped, the queue of a connection is what it was, then exactly the datagrams routed to it, in order. -/
theorem C44_queue {tr s tr' s'} (hr : Sys.Run P bp Sys.init tr s) (hr' : Sys.Run P bp s tr' s') (key : U160) (x : StreamState)
    (hx : s.sock.streams key = some x) (hd : ¬ Dropped key tr') :
    s'.sock.streams key = some { queue := x.queue ++ routedTo key tr', connection := x.connection } := by
  induction hr' with
  | nil => simpa [routedTo] using hx
  | @snoc tr2 s2 t l s3 hp hs ih =>
    have hm := ih (fun ⟨t, h⟩ => hd ⟨t, List.mem_append_left _ h⟩)
    rw [routedTo_append]
    have hl : l ≠ .removed key := fun e => hd ⟨t, List.mem_append_right _ (by rw [e]; exact List.mem_singleton.mpr rfl)⟩
    have hi := inv_reachable (hr.append hp)
    cases hs with
    | act _ p k ha =>
      show k.streams key = _
      cases act_table ha with
      | registered key' st hp h =>
        have hne : key ≠ key' := by
          rintro rfl
          have := hi.pcOk t
          rw [hp] at this
          rw [this.2.2] at hm
          cases hm
        rw [h, tableInsert_other hne, hm]
        simp [routedTo]
      | removed key' hp h =>
        have hne : key ≠ key' := fun e => hl (by rw [e])
        rw [h, tableRemove_other hne, hm]
        simp [routedTo]
      | sent key' d x' hp hx' h =>
        by_cases e : key = key'
        · subst e
          rw [hm] at hx'
          cases hx'
          rw [h, tableInsert_same]
          simp [routedTo]
        · rw [h, tableInsert_other e, hm]
          simp [routedTo, Ne.symm e]
      | none _ h h1 h2 h3 =>
        rw [h, hm]
        cases l with
        | sent key' d => exact absurd rfl (h3 key' d)
        | _ => simp [routedTo]
    | acquire => simpa [routedTo, Sys.goto, Sys.kill] using hm
    | poisoned => simpa [routedTo, Sys.goto, Sys.kill] using hm
    | panic => simpa [routedTo, Sys.goto, Sys.kill] using hm

/-- The entry that appears is the one of the label. -/
theorem appears_registered {s t l s'} (hs : Sys.Step P bp s t l s') {key x} (hn : s.sock.streams key = none)
    (hx : s'.sock.streams key = some x) : l = .registered key x := by
  cases hs with
  | act _ p k ha =>
    have hx : k.streams key = some x := hx
    cases act_table ha with
    | registered key' st hp h =>
      rw [h, tableInsert] at hx
      split at hx
      · rename_i e; cases hx; rw [e]
      · rw [hn] at hx; cases hx
    | removed key' hp h =>
      rw [h, tableRemove] at hx
      split at hx
      · cases hx
      · rw [hn] at hx; cases hx
    | sent key' d x' hp hx' h =>
      rw [h, tableInsert] at hx
      split at hx
      · rename_i e; rw [e, hx'] at hn; cases hn
      · rw [hn] at hx; cases hx
    | none _ h => rw [h, hn] at hx; cases hx
  | acquire => rw [show (s.goto t _).sock = s.sock from rfl, hn] at hx; cases hx
  | poisoned => rw [show (s.kill t).sock = s.sock from rfl, hn] at hx; cases hx
  | panic => rw [show (s.kill t).sock = s.sock from rfl, hn] at hx; cases hx

/-- C44: for every connection in the table of every reachable state, there is the moment it was created (the id was free
before), it has not been dropped since, and its queue is exactly the datagrams routed to it since, in order. -/
theorem C44_since_created {tr s} (hr : Sys.Run P bp Sys.init tr s) (key : U160) (x : StreamState)
    (hx : s.sock.streams key = some x) :
    ∃ tr1 s1 t x0 s2 tr2, tr = tr1 ++ (t, Label.registered key x0) :: tr2
      ∧ Sys.Run P bp Sys.init tr1 s1 ∧ Sys.Step P bp s1 t (.registered key x0) s2 ∧ Sys.Run P bp s2 tr2 s
      ∧ s1.sock.streams key = none ∧ s2.sock.streams key = some x0 ∧ x0.queue = []
      ∧ ¬ Dropped key tr2 ∧ x = { queue := routedTo key tr2, connection := x0.connection } := by
  induction hr generalizing x with
  | nil => cases hx
  | @snoc tr2 s2 t l s3 hp hs ih =>
    cases hb : s2.sock.streams key with
    | none =>
      have hl := appears_registered hs hb hx
      subst hl
      have hq := (C45_new hp hs key x hb hx).1
      exact ⟨tr2, s2, t, x, s3, [], rfl, hp, hs, .nil _, hb, hx, hq, (by rintro ⟨_, h⟩; cases h), by cases x; simp_all [routedTo]⟩
    | some x' =>
      obtain ⟨a, s1, t1, x0, s2', b, rfl, h1, h2, h3, h4, h5, h6, h7, -⟩ := ih x' hb
      have hl : l ≠ .removed key := by
        intro e
        have := (removed_iff hs key).mp e
        rcases C45_existing hp hs key x' hb with g | ⟨d, g, -⟩ | ⟨-, g⟩
        · cases hs with
          | act _ p k ha =>
            rw [this] at ha
            cases ha
            rw [show (Sys.mk _ _ _).sock.streams key = tableRemove s2.sock.streams key key from rfl, tableRemove_same] at g
            cases g
          | acquire => cases e
          | poisoned => cases e
          | panic => cases e
        · rw [this] at g; cases g
        · rw [g] at hx; cases hx
      have h7' : ¬ Dropped key (b ++ [(t, l)]) := by
        rintro ⟨t', h⟩
        rcases List.mem_append.mp h with h | h
        · exact h7 ⟨t', h⟩
        · exact hl (Prod.mk.inj (List.mem_singleton.mp h)).2.symm
      have h3' := Sys.Run.snoc h3 hs
      refine ⟨a, s1, t1, x0, s2', b ++ [(t, l)], by simp, h1, h2, h3', h4, h5, h6, h7', ?_⟩
      have := C44_queue (h1.snoc h2) h3' key x0 h5 h7'
      rw [hx, h6, List.nil_append] at this
      exact Option.some.inj this

/-- C44: every datagram put into the queue of `key` has `key` as its destination id; but Version Negotiation packets, whatever
their destination, go to id 0 (see C43). -/
theorem C44_destination {tr s} (hr : Sys.Run P bp Sys.init tr s) (t : Nat) (key : U160) (d : Datagram)
    (h : (t, Label.sent key d) ∈ tr) : IsFor key d ∨ (key = .zero ∧ ∃ id, Addressed d.data .versionNegotiation id) := by
  induction hr with
  | nil => cases h
  | @snoc tr2 s2 t2 l s3 hp hs ih =>
    rcases List.mem_append.mp h with h | h
    · exact ih h
    · cases List.mem_singleton.mp h
      have hi := (inv_reachable hp).pcOk t
      cases hs with
      | act _ p k ha =>
        cases act_table ha with
        | sent _ _ x hp hx h =>
          rw [hp] at hi
          obtain ⟨hd, he, hid⟩ := hi
          obtain ⟨kind, id, ha, -, hv, -⟩ := header_addressed (s' := (nextHeaderFromStream (makeResultStream d.data)).2)
            (Prod.ext he rfl)
          rw [hid] at hv
          by_cases hk : kind = .versionNegotiation
          · subst hk
            exact .inr ⟨cidVal_inj (hv.trans cidVal_zero.symm), id, ha⟩
          · exact .inl ⟨kind, id, ha, hk, hv.trans (if_neg hk)⟩
        | none _ _ _ _ h3 => exact absurd rfl (h3 key d)

/-- The datagrams a thread took from the network, in order. -/
def receivedBy (t : Nat) : List (Nat × Label) → List Datagram
  | [] => []
  | (t', .received d) :: tr => if t' = t then d :: receivedBy t tr else receivedBy t tr
  | _ :: tr => receivedBy t tr

/-- The datagrams a thread routed to a connection or opened a connection for, in order. -/
def handledBy (t : Nat) : List (Nat × Label) → List Datagram
  | [] => []
  | (t', .sent _ d) :: tr => if t' = t then d :: handledBy t tr else handledBy t tr
  | (t', .opened d) :: tr => if t' = t then d :: handledBy t tr else handledBy t tr
  | _ :: tr => handledBy t tr

/-- The datagram a thread is busy with. -/
def pending : Pc → List Datagram
  | .aLog d => [d]
  | .aFlag d => [d]
  | .aPrint d _ => [d]
  | .aParse d => [d]
  | .aCheckLock d _ => [d]
  | .aCheck d _ => [d]
  | .aRoute d => [d]
  | .aSendLock d _ => [d]
  | .aSend d _ => [d]
  | .aUnwrap d => [d]
  | .aNew d => [d]
  | _ => []

theorem receivedBy_append (t) (a b) : receivedBy t (a ++ b) = receivedBy t a ++ receivedBy t b := by
  induction a with
  | nil => rfl
  | cons e a ih =>
    obtain ⟨t, l⟩ := e
    cases l <;> simp only [List.cons_append, receivedBy, ih]
    split <;> simp
theorem handledBy_append (t) (a b) : handledBy t (a ++ b) = handledBy t a ++ handledBy t b := by
  induction a with
  | nil => rfl
  | cons e a ih =>
    obtain ⟨t, l⟩ := e
    cases l <;> simp only [List.cons_append, handledBy, ih]
    all_goals split <;> simp

theorem act_pending {p k l p' k'} (h : Act P bp p k l p' k') (t : Nat) :
    pending p ++ receivedBy t [(t, l)] = handledBy t [(t, l)] ++ pending p' ∧ p ≠ .dead := by
  cases h <;> simp [pending, receivedBy, handledBy]

theorem wants_pending {p p' : Pc} {l m} (h : p.wants = some (l, m, p')) : pending p' = pending p ∧ p ≠ .dead := by
  cases p <;> simp only [Pc.wants, Option.some.injEq, Prod.mk.injEq, reduceCtorEq] at h <;> obtain ⟨-, -, rfl⟩ := h <;>
    simp [pending]

theorem pending_length (p : Pc) : (pending p).length ≤ 1 := by cases p <;> simp [pending]

/-- Other threads' events do not count. -/
theorem other_nil {t t' : Nat} (h : t' ≠ t) (l) : receivedBy t [(t', l)] = [] ∧ handledBy t [(t', l)] = [] := by
  cases l <;> simp [receivedBy, handledBy, h]

/-- C44: nothing is lost or duplicated between the network and the queues: what a thread took from the network is, in the same
order, what it routed to a connection or opened a connection for, and the one datagram it is busy with. Only a thread that
panics may lose the datagram it was busy with (see C49). -/
theorem C44_lossless {tr s} (hr : Sys.Run P bp Sys.init tr s) (t : Nat) :
    ∃ rest, receivedBy t tr = handledBy t tr ++ rest ∧ rest.length ≤ 1 ∧ (s.pc t ≠ .dead → rest = pending (s.pc t)) := by
  induction hr with
  | nil => exact ⟨[], rfl, by decide, fun _ => rfl⟩
  | @snoc tr2 s2 t2 l s3 hp hs ih =>
    obtain ⟨rest, h1, h2, h3⟩ := ih
    rw [receivedBy_append, handledBy_append, h1]
    by_cases ht : t2 = t
    · subst ht
      cases hs with
      | act _ p k ha =>
        have hpc : ({ s2.goto t2 p with sock := k } : Sys).pc t2 = p := by simp [Sys.goto]
        rw [hpc]
        obtain ⟨g1, g2⟩ := act_pending ha t2
        rw [h3 g2]
        exact ⟨pending p, by rw [List.append_assoc, g1, List.append_assoc], pending_length p, fun _ => rfl⟩
      | acquire _ m p hw =>
        have hpc : (s2.goto t2 p).pc t2 = p := by simp [Sys.goto]
        rw [hpc]
        obtain ⟨g1, g2⟩ := wants_pending hw
        exact ⟨rest, by simp [receivedBy, handledBy], h2, fun _ => by rw [g1, h3 g2]⟩
      | poisoned => exact ⟨rest, by simp [receivedBy, handledBy], h2, fun h => absurd (by simp [Sys.kill, Sys.goto]) h⟩
      | panic => exact ⟨rest, by simp [receivedBy, handledBy], h2, fun h => absurd (by simp [Sys.kill, Sys.goto]) h⟩
    · obtain ⟨o1, o2⟩ := other_nil ht l
      have hpc : s3.pc t = s2.pc t := by
        cases hs <;> simp [Sys.kill, Sys.goto, Ne.symm ht]
      rw [o1, o2, hpc]
      exact ⟨rest, by simp, h2, h3⟩

/-! ## C46 -/

/-- C46: every connection in the table of every reachable state has the id it is registered under as its source id, of length
8 and value below `2^64`. It is a server connection as created for some client's id. -/
theorem C46_own_id {tr s} (hr : Sys.Run P bp Sys.init tr s) (key : U160) (x : StreamState) (hx : s.sock.streams key = some x) :
    x.connection.scid = some (key, 8) ∧ cidVal key < 2 ^ 64
      ∧ ∃ c dcid len, Connection.new P true .v1 dcid len = .ok c ∧ x.connection = { c with scid := some (key, 8) } := by
  obtain ⟨⟨v, hv⟩, c, ⟨dcid, len, hc⟩, he⟩ := (inv_reachable hr).table key x hx
  refine ⟨by rw [he]; rfl, ?_, c, dcid, len, hc, he⟩
  rw [hv, cidVal_ofU64]
  exact v.isLt

/-- C46: so the id has one encoding of 8 bytes, and every datagram with a short header and that id, sent as it is by a peer that
knows the id, is routed to the connection. -/
theorem C46_reply_routed {tr s} (hr : Sys.Run P bp Sys.init tr s) (key : U160) (x : StreamState)
    (hx : s.sock.streams key = some x) :
    ∃ id : Bytes, id.length = 8 ∧ beNat id = cidVal key ∧
      ∀ (first : U8) (rest : Bytes) (addr : Nat), first.toNat < 128 →
        ∃ k', s.sock.routeDatagram ⟨[first] ++ id ++ rest, addr⟩ = (.ok (), k')
          ∧ k'.streams key = some { x with queue := x.queue ++ [⟨[first] ++ id ++ rest, addr⟩] } ∧ SameBut s.sock k' key := by
  obtain ⟨⟨v, hv⟩, -⟩ := (inv_reachable hr).table key x hx
  have hb : beNat (toBeBytes 8 v) = cidVal key := by
    rw [beNat_toBeBytes, hv, cidVal_ofU64]
    exact Nat.mod_eq_of_lt v.isLt
  refine ⟨toBeBytes 8 v, toBeBytes_length .., hb, fun first rest addr hf => ?_⟩
  exact (C43_delivers_partial s.sock _ .oneRtt (toBeBytes 8 v) (.inl ⟨first, rest, rfl, hf, toBeBytes_length .., rfl⟩)
    (by decide)).1 key x hb.symm hx

/-- C46: no two connections have the same source id. -/
theorem C46_ids_distinct {tr s} (hr : Sys.Run P bp Sys.init tr s) (key key' : U160) (x x' : StreamState)
    (hx : s.sock.streams key = some x) (hx' : s.sock.streams key' = some x') (h : x.connection.scid = x'.connection.scid) :
    key = key' := by
  rw [(C46_own_id hr key x hx).1, (C46_own_id hr key' x' hx').1] at h
  exact (Prod.mk.inj (Option.some.inj h)).1

/-! ## C54 -/

/-- A deadlock: some threads, each about to acquire a lock which one of them holds (perhaps itself). This covers every policy of
granting locks: under whatever policy, a request is only kept waiting because of a holder, or because of another request for
the same lock, which is kept waiting in turn; so in a set of threads that wait for each other only, each waits for a lock which
one of them holds. Held for reading by one and wanted for reading by another counts here too, so readers kept waiting behind
a writer are covered. -/
def Deadlock (s : Sys) : Prop := ∃ D : Nat → Prop, (∃ t, D t) ∧ ∀ t, D t → ∃ l m p, (s.pc t).wants = some (l, m, p)
  ∧ ∃ t' m', D t' ∧ (l, m') ∈ (s.pc t').held

/-- The order in which the locks are taken. -/
def Lock.rank : Lock → Nat
  | .socket => 0
  | .log => 1
  | .streams => 2
  | .conn _ => 3

theorem wants_rank {p p' : Pc} {l m} (h : p.wants = some (l, m, p')) {l' m'} (hh : (l', m') ∈ p.held) : l'.rank < l.rank := by
  cases p <;> simp only [Pc.wants, Option.some.injEq, Prod.mk.injEq, reduceCtorEq] at h <;> obtain ⟨rfl, -, -⟩ := h <;>
    simp only [Pc.held, List.mem_cons, List.not_mem_nil, or_false, Prod.mk.injEq] at hh
  all_goals obtain ⟨rfl, -⟩ := hh; simp [Lock.rank]

/-- C54: no state, reachable or not, has a deadlock. -/
theorem C54_no_deadlock (s : Sys) : ¬ Deadlock s := by
  rintro ⟨D, ⟨t0, h0⟩, hD⟩
  have : ∀ n, ∃ t l m p, D t ∧ (s.pc t).wants = some (l, m, p) ∧ n ≤ l.rank := by
    intro n
    induction n with
    | zero =>
      obtain ⟨l, m, p, hw, -⟩ := hD t0 h0
      exact ⟨t0, l, m, p, h0, hw, Nat.zero_le _⟩
    | succ n ih =>
      obtain ⟨t, l, m, p, ht, hw, hn⟩ := ih
      obtain ⟨l1, m1, p1, hw1, t', m', ht', hh⟩ := hD t ht
      rw [hw] at hw1
      cases hw1
      obtain ⟨l2, m2, p2, hw2, -⟩ := hD t' ht'
      have := wants_rank hw2 hh
      exact ⟨t', l2, m2, p2, ht', hw2, by omega⟩
  obtain ⟨t, l, m, p, -, -, h4⟩ := this 4
  cases l <;> simp [Lock.rank] at h4

/-- C54: no lock is ever poisoned, so no `unwrap` of a lock ever panics. -/
theorem C54_never_poisoned {tr s} (hr : Sys.Run P bp Sys.init tr s) (l : Lock) : s.poisoned l = false := (inv_reachable hr).clean l

/-- C54: locks exclude: while a thread holds a lock for writing, no other thread holds it. -/
theorem C54_exclusive {tr s} (hr : Sys.Run P bp Sys.init tr s) (t t' : Nat) (l : Lock) (m : Mode)
    (h : (l, Mode.write) ∈ (s.pc t).held) (h' : (l, m) ∈ (s.pc t').held) : t = t' :=
  Classical.byContradiction fun hne => by cases ((inv_reachable hr).excl t t' l .write m hne h h').1

/-- At any program counter that does not wait for a lock there is something to do. -/
theorem pc_enabled (k : Sock) (p : Pc) (hp : PcOk P k p) (hw : p.wants = none) (hd : p ≠ .dead) :
    (∃ l p' k', Act P bp p k l p' k') ∨ Panics P bp p k := by
  cases p with
  | idle => exact .inl ⟨_, _, _, .callAccept k⟩
  | dead => exact absurd rfl hd
  | aRecv => exact .inl ⟨_, _, _, .recvError k⟩
  | aFlag d => exact .inl ⟨_, _, _, .flag k d⟩
  | aPrint d w =>
    cases w with
    | false => exact .inl ⟨_, _, _, .noPrint k d⟩
    | true => exact .inl ⟨_, _, _, .print k d (nextHeader_noPanic _)⟩
  | aParse d =>
    cases hh : (nextHeaderFromStream (makeResultStream d.data)).1 with
    | ok h =>
      cases ht : h.getPacketType with
      | ok t =>
        by_cases hi : t = .initial
        · exact .inl ⟨_, _, _, .parseInitial k d h hh (hi ▸ ht)⟩
        · exact .inl ⟨_, _, _, .parseOther k d h t hh ht hi⟩
      | err e => exact .inr (.packetType k d h hh (by rw [ht]; rfl))
      | panic w => exact .inr (.packetType k d h hh (by rw [ht]; rfl))
    | err e => exact .inl ⟨_, _, _, .parseError k d e hh⟩
    | panic w => exact .inr (.parse k d w hh)
  | aCheck d dcid =>
    cases h : k.streams dcid with
    | none => exact .inl ⟨_, _, _, .checkNew k d dcid h⟩
    | some x => exact .inl ⟨_, _, _, .checkKnown k d dcid x h⟩
  | aRoute d =>
    cases hh : (nextHeaderFromStream (makeResultStream d.data)).1 with
    | ok h => exact .inl ⟨_, _, _, .route k d h hh⟩
    | err e => exact .inl ⟨_, _, _, .routeError k d e hh⟩
    | panic w => exact .inr (.route k d w hh)
  | aSend d cid =>
    cases h : k.streams cid with
    | none => exact .inl ⟨_, _, _, .sendMissing k d cid h⟩
    | some x => exact .inl ⟨_, _, _, .send k d cid x h⟩
  | aUnwrap d => exact .inr (.unwrap k d)
  | aNew d =>
    cases h : Sock.newConnectionFor P d with
    | ok c => exact .inl ⟨_, _, _, .new k d c h⟩
    | err e => exact .inr (.new k d (by rw [h]; rfl))
    | panic w => exact .inr (.new k d (by rw [h]; rfl))
  | aRandom s => exact .inl ⟨_, _, _, .random k s 0⟩
  | aContains s key =>
    cases h : k.streams key with
    | none => exact .inl ⟨_, _, _, .fresh k s key h⟩
    | some x => exact .inl ⟨_, _, _, .taken k s key x h⟩
  | aSetScid s key => exact .inl ⟨_, _, _, .setScid k s key⟩
  | aInsert s key => exact .inl ⟨_, _, _, .insert k s key⟩
  | aUnlock key => exact .inl ⟨_, _, _, .unlock k key⟩
  | aGet key =>
    cases h : k.streams key with
    | none => exact .inr (.get k key h)
    | some x => exact .inl ⟨_, _, _, .get k key x h⟩
  | aTodo key => exact .inr (.todo k key)
  | pParse d =>
    cases hh : (nextHeaderFromStream (makeResultStream d.data)).1 with
    | ok h => exact .inl ⟨_, _, _, .packetsParse k d h hh⟩
    | err e => exact .inl ⟨_, _, _, .packetsParseError k d e hh⟩
    | panic w => exact .inr (.packetsParse k d w hh)
  | pGet d cid =>
    cases h : k.streams cid with
    | none => exact .inl ⟨_, _, _, .packetsMissing k d cid h⟩
    | some x => exact .inl ⟨_, _, _, .packetsGet k d cid x h⟩
  | pDecode d cid =>
    cases h : k.streams cid with
    | none => exact absurd h hp
    | some x =>
      cases hd : (decodePackets bp x.connection (makeResultStream d.data)).1 with
      | ok ps => exact .inl ⟨_, _, _, .decode k d cid x ps h hd⟩
      | err e => exact .inl ⟨_, _, _, .decodeError k d cid x e h hd⟩
      | panic w => exact .inr (.decode k d cid x w h hd)
  | pFlag ps => exact .inl ⟨_, _, _, .packetsFlag k ps⟩
  | pPrint ps w =>
    cases w with
    | false => exact .inl ⟨_, _, _, .packetsNoPrint k ps⟩
    | true => exact .inl ⟨_, _, _, .packetsPrint k ps⟩
  | dRemove cid => exact .inl ⟨_, _, _, .remove k cid⟩
  | sSet flag => exact .inl ⟨_, _, _, .setLog k flag⟩
  | _ => cases hw

/-- C54: a thread that is not waiting for a lock can go on. (In `recv_from` it goes on when the network lets it.) -/
theorem C54_not_stuck {tr s} (hr : Sys.Run P bp Sys.init tr s) (t : Nat) (hd : s.pc t ≠ .dead) (hw : (s.pc t).wants = none) :
    ∃ l s', Sys.Step P bp s t l s' := by
  rcases pc_enabled s.sock (s.pc t) ((inv_reachable hr).pcOk t) hw hd with ⟨l, p, k, h⟩ | h
  · exact ⟨_, _, .act s t l p k h⟩
  · exact ⟨_, _, .panic s t h⟩

/-- C54: a thread waiting for a lock other than the socket's, which is held during `recv_from`, is never waiting for nothing: it can
go on, or one of the threads that hold a lock of higher or the same rank can. -/
theorem C54_progress {tr s} (hr : Sys.Run P bp Sys.init tr s) (t : Nat) (l : Lock) (m : Mode) (p : Pc)
    (hw : (s.pc t).wants = some (l, m, p)) (hl : l ≠ .socket) :
    ∃ t' e s', Sys.Step P bp s t' e s' ∧ (t' = t ∨ ∃ l' m', (l', m') ∈ (s.pc t').held ∧ l.rank ≤ l'.rank ∧ l' ≠ .socket) := by
  have : ∀ n t l m p, (s.pc t).wants = some (l, m, p) → l ≠ .socket → 4 ≤ l.rank + n →
      ∃ t' e s', Sys.Step P bp s t' e s' ∧ (t' = t ∨ ∃ l' m', (l', m') ∈ (s.pc t').held ∧ l.rank ≤ l'.rank ∧ l' ≠ .socket) := by
    intro n
    induction n with
    | zero => intro t l m p _ _ h; cases l <;> simp [Lock.rank] at h
    | succ n ih =>
      intro t l m p hw hl hn
      by_cases hf : s.Free l m
      · exact ⟨t, _, _, .acquire s t l m p hw hf ((inv_reachable hr).clean l), .inl rfl⟩
      · have : ∃ t' m', (l, m') ∈ (s.pc t').held := Classical.byContradiction fun h =>
          hf fun t' m' h' => absurd ⟨t', m', h'⟩ h
        obtain ⟨t', m', hh⟩ := this
        cases hw' : (s.pc t').wants with
        | none =>
          have hd : s.pc t' ≠ .dead := fun e => by rw [e] at hh; cases hh
          obtain ⟨e, s', hs⟩ := C54_not_stuck hr t' hd hw'
          exact ⟨t', e, s', hs, .inr ⟨l, m', hh, Nat.le_refl _, hl⟩⟩
        | some w =>
          obtain ⟨l2, m2, p2⟩ := w
          have hlt := wants_rank hw' hh
          have hl2 : l2 ≠ .socket := by rintro rfl; simp [Lock.rank] at hlt
          obtain ⟨t'', e, s', hs, h⟩ := ih t' l2 m2 p2 hw' hl2 (by omega)
          refine ⟨t'', e, s', hs, .inr ?_⟩
          rcases h with rfl | ⟨l3, m3, h3, h4, h5⟩
          · exact ⟨l, m', hh, Nat.le_refl _, hl⟩
          · exact ⟨l3, m3, h3, by omega, h5⟩
  exact this 4 t l m p hw hl (by omega)

/-- C54: in a state where some thread is in a call, some thread can go on that is in a call too, or one is waiting for the network. -/
theorem C54_someone_runs {tr s} (hr : Sys.Run P bp Sys.init tr s) (t : Nat) (hd : s.pc t ≠ .dead) (hi : s.pc t ≠ .idle) :
    (∃ t', s.pc t' = .aRecv) ∨ ∃ t' e s', Sys.Step P bp s t' e s' ∧ s.pc t' ≠ .idle := by
  cases hw : (s.pc t).wants with
  | none =>
    obtain ⟨e, s', h⟩ := C54_not_stuck hr t hd hw
    exact .inr ⟨t, e, s', h, hi⟩
  | some w =>
    obtain ⟨l, m, p⟩ := w
    by_cases hl : l = .socket
    · subst hl
      by_cases hf : s.Free .socket m
      · exact .inr ⟨t, _, _, .acquire s t _ m p hw hf ((inv_reachable hr).clean _), hi⟩
      · have : ∃ t' m', (Lock.socket, m') ∈ (s.pc t').held := Classical.byContradiction fun h =>
          hf fun t' m' h' => absurd ⟨t', m', h'⟩ h
        obtain ⟨t', m', hh⟩ := this
        have hid : s.pc t' ≠ .idle := fun e => by rw [e] at hh; cases hh
        have hde : s.pc t' ≠ .dead := fun e => by rw [e] at hh; cases hh
        cases hw' : (s.pc t').wants with
        | none =>
          obtain ⟨e, s', h⟩ := C54_not_stuck hr t' hde hw'
          exact .inr ⟨t', e, s', h, hid⟩
        | some w =>
          obtain ⟨l2, m2, p2⟩ := w
          have hlt := wants_rank hw' hh
          have hl2 : l2 ≠ .socket := by rintro rfl; simp [Lock.rank] at hlt
          obtain ⟨t'', e, s', hs, h⟩ := C54_progress hr t' l2 m2 p2 hw' hl2
          refine .inr ⟨t'', e, s', hs, ?_⟩
          rcases h with rfl | ⟨_, _, h, -⟩
          · exact hid
          · intro e; rw [e] at h; cases h
    · obtain ⟨t'', e, s', hs, h⟩ := C54_progress hr t l m p hw hl
      refine .inr ⟨t'', e, s', hs, ?_⟩
      rcases h with rfl | ⟨_, _, h, -⟩
      · exact hi
      · intro e; rw [e] at h; cases h

/-- How many more of its own steps a thread holds locks. -/
def holdTime : Pc → Nat
  | .aLog _ => 3
  | .aFlag _ => 2
  | .aPrint _ _ => 1
  | .aCheck _ _ => 1
  | .aSend _ _ => 1
  | .aContains _ _ => 5
  | .aScidLock _ _ => 4
  | .aSetScid _ _ => 3
  | .aInsert _ _ => 2
  | .aUnlock _ => 1
  | .aGet _ => 1
  | .pGet _ _ => 3
  | .pConnLock _ _ => 2
  | .pDecode _ _ => 1
  | .pFlag _ => 1
  | .dRemove _ => 1
  | .sSet _ => 1
  | _ => 0

/-- C54: no lock is held for ever: a thread holds locks for at most five of its own steps, but for `recv_from`. Each step of a
thread that holds locks, other than in `recv_from`, brings it nearer to releasing all of them, and no step of another thread takes it
further away. -/
theorem C54_released {s t l s'} (hs : Sys.Step P bp s t l s') :
    (∀ t', t' ≠ t → s'.pc t' = s.pc t') ∧ holdTime (s.pc t) ≤ 5
    ∧ ((s.pc t).held ≠ [] → s.pc t ≠ .aRecv → holdTime (s'.pc t) < holdTime (s.pc t) ∧
        (holdTime (s'.pc t) = 0 → (s'.pc t).held = [])) := by
  refine ⟨?_, ?_, ?_⟩
  · intro t' h
    cases hs <;> simp [Sys.kill, Sys.goto, h]
  · cases s.pc t <;> simp [holdTime]
  · cases hs with
    | act _ p k ha =>
      have hpc : ({ s.goto t p with sock := k } : Sys).pc t = p := by simp [Sys.goto]
      rw [hpc]
      generalize s.pc t = q at ha
      cases ha <;> simp [holdTime, Pc.held]
    | acquire _ m p hw =>
      have hpc : (s.goto t p).pc t = p := by simp [Sys.goto]
      rw [hpc]
      generalize s.pc t = q at hw
      cases q <;> simp only [Pc.wants, Option.some.injEq, Prod.mk.injEq, reduceCtorEq] at hw <;> obtain ⟨-, -, rfl⟩ := hw <;>
        simp [holdTime, Pc.held]
    | poisoned _ m p hw =>
      have hpc : (s.kill t).pc t = .dead := by simp [Sys.kill, Sys.goto]
      rw [hpc]
      generalize s.pc t = q at hw
      cases q <;> simp only [Pc.wants, reduceCtorEq] at hw <;> simp [holdTime, Pc.held]
    | panic h =>
      have hpc : (s.kill t).pc t = .dead := by simp [Sys.kill, Sys.goto]
      rw [hpc]
      generalize s.pc t = q at h
      cases h <;> simp [holdTime, Pc.held]

/-! ## One caller at a time

The histories of `Sock.run`, where each call is finished before the next begins, are among the runs, so that all of the above holds for
them. -/

/-- The socket after a history of calls is the socket of a reachable state. -/
theorem history_reachable (ops : List SockOp) (hops : ∀ op ∈ ops, op.call = true) :
    ∃ tr s, Sys.Run P bp Sys.init tr s ∧ s.sock = (Sock.run P bp Sock.bind ops).2 ∧ ∀ t, (s.pc t).held = [] := by
  obtain ⟨tr, pcs, hr, hq, -⟩ := run_of_history (P := P) (bp := bp) ops hops Sock.bind 0 (fun _ => .idle) (fun _ => rfl) (fun _ _ => rfl)
  exact ⟨tr, _, hr, rfl, hq⟩

/-- C46 for histories. -/
theorem C46_history (ops : List SockOp) (hops : ∀ op ∈ ops, op.call = true) (key : U160) (x : StreamState)
    (hx : (Sock.run P bp Sock.bind ops).2.streams key = some x) :
    x.connection.scid = some (key, 8) ∧ cidVal key < 2 ^ 64
      ∧ ∃ c dcid len, Connection.new P true .v1 dcid len = .ok c ∧ x.connection = { c with scid := some (key, 8) } := by
  obtain ⟨tr, s, hr, e, -⟩ := history_reachable (P := P) (bp := bp) ops hops
  rw [← e] at hx
  exact C46_own_id hr key x hx

/-- A history: two clients are accepted under 7 and 9, then a datagram arrives for 7 while waiting for the next client. -/
def exHistory : List SockOp :=
  [.accept [.datagram [0xc3, 0, 0, 0, 1, 8, 0, 0, 0, 0, 0, 0, 0, 5, 0, 9] 1] [7],
   .accept [.datagram [0xc3, 0, 0, 0, 1, 8, 0, 0, 0, 0, 0, 0, 0, 6, 0, 9] 2] [7, 9],
   .accept [.datagram [0x43, 0, 0, 0, 0, 0, 0, 0, 7, 1, 2] 1] []]

theorem exHistory_queue : (((Sock.run toy .debug Sock.bind exHistory).2.streams (.ofU64 7)).map (·.queue))
    = some [⟨[0x43, 0, 0, 0, 0, 0, 0, 0, 7, 1, 2], 1⟩]
    ∧ (((Sock.run toy .debug Sock.bind exHistory).2.streams (.ofU64 9)).map (·.queue)) = some [] := by
  decide +kernel

/-- The hypotheses of C44, C45 and C46 are met: a reachable state with two connections, one with a queued datagram. -/
theorem ex_reachable : ∃ tr s x y, Sys.Run toy .debug Sys.init tr s ∧ s.sock.streams (.ofU64 7) = some x
    ∧ x.queue = [⟨[0x43, 0, 0, 0, 0, 0, 0, 0, 7, 1, 2], 1⟩] ∧ s.sock.streams (.ofU64 9) = some y ∧ y.queue = [] := by
  obtain ⟨tr, s, hr, e, -⟩ := history_reachable (P := toy) (bp := .debug) exHistory (by decide)
  obtain ⟨h1, h2⟩ := exHistory_queue
  rw [← e] at h1 h2
  obtain ⟨x, hx, hx'⟩ := Option.map_eq_some_iff.mp h1
  obtain ⟨y, hy, hy'⟩ := Option.map_eq_some_iff.mp h2
  exact ⟨tr, s, x, y, hr, hx, hx', hy, hy'⟩

/-- So the trace of that run has a datagram routed to 7 since its creation. -/
example : ∃ tr s tr1 t x0 tr2, Sys.Run toy .debug Sys.init tr s ∧ tr = tr1 ++ (t, Label.registered (.ofU64 7) x0) :: tr2
    ∧ routedTo (.ofU64 7) tr2 = [⟨[0x43, 0, 0, 0, 0, 0, 0, 0, 7, 1, 2], 1⟩] := by
  obtain ⟨tr, s, x, y, hr, hx, hq, -⟩ := ex_reachable
  obtain ⟨tr1, -, t, x0, -, tr2, h1, -, -, -, -, -, -, -, h2⟩ := C44_since_created hr _ x hx
  rw [h2] at hq
  exact ⟨tr, s, tr1, t, x0, tr2, hr, h1, hq⟩

/-- The hypotheses of `C54_progress` and `C54_someone_runs` are met: two threads in `accept`, one in `recv_from` and one waiting for the
socket, and a third waiting for the table. -/
example : ∃ tr s, Sys.Run toy .debug Sys.init tr s ∧ s.pc 0 = .aRecv ∧ s.pc 1 = .aLock ∧ s.pc 2 = .dLock .zero := by
  have h0 : Sys.Run toy .debug Sys.init [] Sys.init := .nil _
  have h1 := h0.snoc (.act _ 0 _ _ _ (.callAccept _))
  have h2 := h1.snoc (.act _ 1 _ _ _ (.callAccept _))
  have h3 := h2.snoc (.act _ 2 _ _ _ (.callDrop _ .zero))
  have h4 := h3.snoc (.acquire _ 0 .socket .write .aRecv rfl (by
    intro t m' h
    simp only [Sys.goto, Sys.init] at h
    split at h
    · cases h
    · split at h
      · cases h
      · split at h <;> cases h) rfl)
  exact ⟨_, _, h4, rfl, rfl, rfl⟩

end QuicSea
