import Verif.Props.Concurrent
/-
C44 for histories of calls, in terms of the datagrams the calls took from the network, and C115: connections do not influence one another.
-/
namespace Spec
open QuicSea

/-- The connection a datagram goes to: the one of its destination id, or the one of id 0 if it is a Version Negotiation packet (see C43). -/
def Dest (key : U160) (d : Datagram) : Prop :=
  ∃ kind id, Addressed d.data kind id ∧ cidVal key = if kind = .versionNegotiation then 0 else beNat id

open Classical in
/-- The datagrams for `key`, in order. -/
noncomputable def destined (key : U160) (ds : List Datagram) : List Datagram := ds.filter fun d => decide (Dest key d)

/-- The datagrams among network events, as far as they fit the receive buffer. -/
def arrived : List NetEvent → List Datagram
  | [] => []
  | .datagram raw addr :: net => ⟨raw.take 4096, addr⟩ :: arrived net
  | .ioError :: net => arrived net

end Spec

namespace QuicSea
open Spec Sock

theorem dest_eq {key : U160} {d : Datagram} {kind id} (ha : Addressed d.data kind id) : Dest key d ↔ cidVal key = routeVal kind id := by
  constructor
  · rintro ⟨k2, id2, h2, e⟩
    obtain ⟨rfl, rfl⟩ := addressed_unique ha h2
    exact e
  · exact fun e => ⟨kind, id, ha, e⟩

theorem destined_cons (key : U160) (d : Datagram) (ds : List Datagram) : destined key (d :: ds) = destined key [d] ++ destined key ds := by
  unfold destined
  rw [← List.filter_append]; rfl
theorem destined_append (key : U160) (a b : List Datagram) : destined key (a ++ b) = destined key a ++ destined key b := List.filter_append ..
theorem destined_yes {key : U160} {d : Datagram} (h : Dest key d) : destined key [d] = [d] := by simp [destined, h]
theorem destined_no {key : U160} {d : Datagram} (h : ¬ Dest key d) : destined key [d] = [] := by simp [destined, h]

/-- What a step does to the connection `key`: it gains the datagrams `ds`, and if there was none there is none. -/
def Gains (k k' : Sock) (ds : List Datagram) : Prop :=
  ∀ key, (∀ x, k.streams key = some x → k'.streams key = some { x with queue := x.queue ++ destined key ds }) ∧
    (k.streams key = none → k'.streams key = none)

theorem Gains.refl (k : Sock) {ds : List Datagram} (h : ∀ key, (k.streams key).isSome → destined key ds = []) : Gains k k ds := by
  refine fun key => ⟨fun x hx => ?_, fun hn => hn⟩
  rw [h key (by rw [hx]; rfl), List.append_nil, hx]
theorem Gains.trans {k k' k'' : Sock} {a b : List Datagram} (h1 : Gains k k' a) (h2 : Gains k' k'' b) : Gains k k'' (a ++ b) := by
  refine fun key => ⟨fun x hx => ?_, fun hn => (h2 key).2 ((h1 key).2 hn)⟩
  rw [(h2 key).1 _ ((h1 key).1 x hx), destined_append, ← List.append_assoc]

theorem route_gains (k : Sock) (d : Datagram) : Gains k (k.routeDatagram d).2 [d] := by
  by_cases hm : Malformed d.data
  · obtain ⟨e, he⟩ := route_malformed (k := k) hm
    rw [he]
    exact .refl k fun key _ => destined_no fun ⟨kind, id, ha, _⟩ => hm ⟨kind, id, ha⟩
  · obtain ⟨kind, id, ha⟩ := Classical.byContradiction (p := ∃ kind id, Addressed d.data kind id) hm
    obtain ⟨hd, s', e, -, hv, -⟩ := addressed_header ha
    cases hx : k.streams hd.getDestinationId with
    | none =>
      rw [route_unknown ha (fun key hk => by rw [cidVal_inj (hk.trans hv.symm)]; exact hx)]
      refine .refl k fun key hs => destined_no fun hd' => ?_
      rw [cidVal_inj (((dest_eq ha).mp hd').trans hv.symm), hx] at hs
      cases hs
    | some y =>
      rw [route_known ha hv hx]
      intro key
      by_cases hkk : key = hd.getDestinationId
      · subst hkk
        refine ⟨fun x h => ?_, fun h => by rw [hx] at h; cases h⟩
        rw [hx] at h
        cases h
        rw [destined_yes ((dest_eq ha).mpr hv)]
        exact tableInsert_same ..
      · refine ⟨fun x h => ?_, fun h => (tableInsert_other hkk).trans h⟩
        rw [destined_no fun hd' => hkk (cidVal_inj (((dest_eq ha).mp hd').trans hv.symm)), List.append_nil]
        exact (tableInsert_other hkk).trans h

/-- Waiting for a new connection: some of the network events are taken, and each connection gains its own. -/
theorem wait_gains (net : List NetEvent) (k : Sock) :
    ∃ used, net = used ++ (k.recvNewInitialDatagram net).2.2 ∧ Gains k (k.recvNewInitialDatagram net).2.1 (arrived used) := by
  induction net generalizing k with
  | nil => exact ⟨[], rfl, .refl k fun _ _ => rfl⟩
  | cons e net ih =>
    cases e with
    | ioError => exact ⟨[.ioError], rfl, .refl k fun _ _ => rfl⟩
    | datagram raw addr =>
      obtain ⟨p, hp⟩ := recv_datagram k raw addr
      unfold recvNewInitialDatagram
      rw [hp]
      dsimp only
      have h0 : Gains k { k with printed := p } [] := .refl k fun _ _ => rfl
      generalize hd : (⟨raw.take RECV_BUFFER_LEN, addr⟩ : Datagram) = d
      have hd' : arrived [.datagram raw addr] = [d] := by rw [← hd]; rfl
      cases hn : isNewInitial { k with printed := p } d with
      | ok b =>
        cases b with
        | true =>
          refine ⟨[.datagram raw addr], rfl, ?_⟩
          rw [hd']
          refine h0.trans (.refl _ fun key hs => destined_no fun ⟨kind, id, ha, hk⟩ => ?_)
          rw [isNew_addressed ha hk] at hn
          injection hn with hn
          cases hx : k.streams key with
          | none => rw [hx] at hs; cases hs
          | some x => rw [hx] at hn; simp at hn
        | false =>
          have hg := h0.trans (route_gains { k with printed := p } d)
          cases hr : routeDatagram { k with printed := p } d with
          | mk o k2 =>
            rw [hr] at hg
            dsimp only
            cases o with
            | ok u =>
              obtain ⟨used, e1, e2⟩ := ih k2
              refine ⟨.datagram raw addr :: used, by rw [List.cons_append, ← e1], ?_⟩
              have := hg.trans e2
              rw [← hd'] at this
              exact this
            | err x => exact ⟨[.datagram raw addr], rfl, by rw [hd']; exact hg⟩
            | panic x => exact ⟨[.datagram raw addr], rfl, by rw [hd']; exact hg⟩
      | err x => 
        exfalso
        by_cases hm : Malformed d.data
        · rw [isNew_malformed hm] at hn; cases hn
        · obtain ⟨kind, id, ha⟩ := Classical.byContradiction (p := ∃ kind id, Addressed d.data kind id) hm
          obtain ⟨hd, s', e, -, hv, -⟩ := addressed_header ha
          rw [isNew_addressed ha hv] at hn; cases hn
      | panic x =>
        exfalso
        by_cases hm : Malformed d.data
        · rw [isNew_malformed hm] at hn; cases hn
        · obtain ⟨kind, id, ha⟩ := Classical.byContradiction (p := ∃ kind id, Addressed d.data kind id) hm
          obtain ⟨hd, s', e, -, hv, -⟩ := addressed_header ha
          rw [isNew_addressed ha hv] at hn; cases hn

theorem register_keeps (rng : List U64) (k : Sock) (y : StreamState) (key : U160) (x : StreamState) (hx : k.streams key = some x) :
    (k.register y rng).2.1.streams key = some x := by
  induction rng with
  | nil => exact hx
  | cons r rng ih =>
    unfold register
    dsimp only
    split
    · rename_i hn
      refine (tableInsert_other ?_).trans hx
      rintro rfl
      rw [hx] at hn
      cases hn
    · exact ih

/-- C44, one call of `accept`, on any socket: it takes some of the events from the network, and every connection gains exactly the datagrams for it
among them, in order, once each. -/
theorem C44_accept (P : Prims) (k : Sock) (net : List NetEvent) (rng : List U64) :
    ∃ used, net = used ++ (k.accept P net rng).2.2.1 ∧
      ∀ key x, k.streams key = some x → (k.accept P net rng).2.1.streams key = some { x with queue := x.queue ++ destined key (arrived used) } := by
  obtain ⟨used, e1, hg⟩ := wait_gains net k
  refine ⟨used, ?_⟩
  unfold accept
  generalize k.recvNewInitialDatagram net = r at e1 hg
  obtain ⟨o, k1, net1⟩ := r
  dsimp only at e1 hg
  cases o with
  | ok d =>
    dsimp only
    cases newConnectionFor P d with
    | ok c =>
      dsimp only
      have hk := fun key x => register_keeps rng k1 (.fromConnection c) key x
      generalize k1.register (.fromConnection c) rng = r2 at hk
      obtain ⟨o2, k2, rng2⟩ := r2
      dsimp only at hk
      have main : net = used ++ net1 ∧ ∀ key x, k.streams key = some x → k2.streams key = some { x with queue := x.queue ++ destined key (arrived used) } :=
        ⟨e1, fun key x hx => hk key _ ((hg key).1 x hx)⟩
      cases o2 with
      | ok rv => dsimp only; cases k2.streams rv <;> exact main
      | _ => exact main
    | _ => exact ⟨e1, fun key x hx => (hg key).1 x hx⟩
  | _ => exact ⟨e1, fun key x hx => (hg key).1 x hx⟩

/-- The datagrams a call took: those taken from the network by `accept`, the one given to `route_datagram`. -/
def SockOp.took (P : Prims) (k : Sock) : SockOp → List Datagram
  | .accept net rng => arrived (net.take (net.length - (k.accept P net rng).2.2.1.length))
  | .route d => [d]
  | _ => []

/-- The datagrams taken over a history, in order. -/
def tookAll (P : Prims) (bp : Profile) (k : Sock) : List SockOp → List Datagram
  | [] => []
  | op :: ops => op.took P k ++ tookAll P bp (k.step P bp op).2 ops

theorem step_took (P : Prims) (bp : Profile) (k : Sock) (op : SockOp) (key : U160) (x : StreamState) (hx : k.streams key = some x)
    (hd : op ≠ .drop key) : (k.step P bp op).2.streams key = some { x with queue := x.queue ++ destined key (op.took P k) } := by
  cases op with
  | accept net rng =>
    obtain ⟨used, e1, h⟩ := C44_accept P k net rng
    have : net.take (net.length - (k.accept P net rng).2.2.1.length) = used := by
      have cut : ∀ a b : List NetEvent, a = used ++ b → a.take (a.length - b.length) = used := by
        rintro _ b rfl
        rw [List.length_append, Nat.add_sub_cancel, List.take_left' rfl]
      exact cut _ _ e1
    show (k.accept P net rng).2.1.streams key = _
    rw [h key x hx, SockOp.took, this]
  | route d => exact (route_gains k d key).1 x hx
  | packets d =>
    have : (k.packetsFromDatagram bp d).2.streams = k.streams := by
      unfold packetsFromDatagram
      dsimp only
      split
      · split
        · rfl
        · split
          · split <;> rfl
          · rfl
      · rfl
      · rfl
    show (k.packetsFromDatagram bp d).2.streams key = _
    rw [this, hx]
    show _ = some { x with queue := x.queue ++ [] }
    rw [List.append_nil]
  | drop cid =>
    show tableRemove k.streams cid key = _
    rw [tableRemove_other (fun e => hd (by rw [e])), hx]
    show _ = some { x with queue := x.queue ++ [] }
    rw [List.append_nil]
  | setLog flag =>
    show k.streams key = _
    rw [hx]
    show _ = some { x with queue := x.queue ++ [] }
    rw [List.append_nil]

/-- **C44 for histories** of calls, one after the other, on any socket: until it is dropped, the queue of a connection is what it was, then exactly
the datagrams for it among those the calls took, in the order in which they were taken. -/
theorem C44_history (P : Prims) (bp : Profile) (ops : List SockOp) (k : Sock) (key : U160) (x : StreamState) (hx : k.streams key = some x)
    (hd : .drop key ∉ ops) :
    (Sock.run P bp k ops).2.streams key = some { x with queue := x.queue ++ destined key (tookAll P bp k ops) } := by
  induction ops generalizing k x with
  | nil =>
    show k.streams key = some { x with queue := x.queue ++ [] }
    rw [List.append_nil]; exact hx
  | cons op ops ih =>
    have h1 := step_took P bp k op key x hx fun e => hd (by rw [e]; exact List.mem_cons_self ..)
    have := ih (k.step P bp op).2 _ h1 fun h => hd (List.mem_cons_of_mem _ h)
    show (Sock.run P bp (k.step P bp op).2 ops).2.streams key = _
    rw [this]
    show _ = some { x with queue := x.queue ++ destined key (op.took P k ++ tookAll P bp (k.step P bp op).2 ops) }
    rw [destined_append, ← List.append_assoc]

/-- Instance: connection 7 of `exHistory` gains the third datagram, connection 9 nothing. -/
example : ((Sock.run toy .debug Sock.bind (exHistory.take 2)).2.streams (.ofU64 7)).map (·.queue) = some [] ∧
    tookAll toy .debug (Sock.run toy .debug Sock.bind (exHistory.take 2)).2 (exHistory.drop 2) = [⟨[0x43, 0, 0, 0, 0, 0, 0, 0, 7, 1, 2], 1⟩] ∧
    Dest (.ofU64 7) ⟨[0x43, 0, 0, 0, 0, 0, 0, 0, 7, 1, 2], 1⟩ := by
  refine ⟨by decide +kernel, by decide +kernel, .oneRtt, [0, 0, 0, 0, 0, 0, 0, 7], .inl ⟨0x43, [1, 2], rfl, by decide, rfl, rfl⟩, by decide +kernel⟩

/-! ## C115 -/

/-- **C115.** Connections do not influence one another. Two histories of calls, on two sockets that hold the same connection under an id: if the
calls took the same datagrams for that id in the same order, then whatever else they took, accepted, dropped or decoded, afterwards the sockets
hold the same connection with the same queue under that id. -/
theorem C115_history (P : Prims) (bp : Profile) (k1 k2 : Sock) (ops1 ops2 : List SockOp) (key : U160) (x : StreamState)
    (h1 : k1.streams key = some x) (h2 : k2.streams key = some x) (d1 : .drop key ∉ ops1) (d2 : .drop key ∉ ops2)
    (hsame : destined key (tookAll P bp k1 ops1) = destined key (tookAll P bp k2 ops2)) :
    ∃ y, (Sock.run P bp k1 ops1).2.streams key = some y ∧ (Sock.run P bp k2 ops2).2.streams key = some y ∧ y.connection = x.connection := by
  refine ⟨_, C44_history P bp ops1 k1 key x h1 d1, ?_, rfl⟩
  rw [C44_history P bp ops2 k2 key x h2 d2, hsame]

/-- C115, every schedule of any number of threads: two executions in which an id was opened for the same datagram's connection and the same
datagrams were then routed to it. -/
theorem C115_schedules {P : Prims} {bp bp' : Profile} {tr1 tr1' tr2 tr2'} {s1 s1' s2 s2' : Sys} (r1 : Sys.Run P bp Sys.init tr1 s1)
    (r1' : Sys.Run P bp s1 tr1' s1') (r2 : Sys.Run P bp' Sys.init tr2 s2) (r2' : Sys.Run P bp' s2 tr2' s2') (key : U160) (x : StreamState)
    (h1 : s1.sock.streams key = some x) (h2 : s2.sock.streams key = some x) (d1 : ¬ Dropped key tr1') (d2 : ¬ Dropped key tr2')
    (hsame : routedTo key tr1' = routedTo key tr2') :
    ∃ y, s1'.sock.streams key = some y ∧ s2'.sock.streams key = some y ∧ y.connection = x.connection := by
  refine ⟨_, C44_queue r1 r1' key x h1 d1, ?_, rfl⟩
  rw [C44_queue r2 r2' key x h2 d2, hsame]

/-- C115: what a datagram for a connection decodes to is decided by that connection alone. -/
theorem C115_decoding (bp : Profile) (k1 k2 : Sock) (key : U160) (x y : StreamState) (h1 : k1.streams key = some x) (h2 : k2.streams key = some y)
    (hc : x.connection = y.connection) (d : Datagram) (hd : Dest key d) :
    (k1.packetsFromDatagram bp d).1 = (k2.packetsFromDatagram bp d).1 := by
  obtain ⟨kind, id, ha, hk⟩ := hd
  obtain ⟨hd, s', e, -, hv, -⟩ := addressed_header ha
  have hid : hd.getDestinationId = key := cidVal_inj (hv.trans hk.symm)
  unfold packetsFromDatagram
  dsimp only
  rw [e]
  dsimp only
  rw [hid, h1, h2]
  dsimp only
  rw [hc]
  cases (decodePackets bp y.connection (makeResultStream d.data)).1 <;> rfl

/-- C115: so at any time of two histories as in `C115_history`, a datagram for the connection decodes to the same packets. -/
theorem C115_results (P : Prims) (bp : Profile) (k1 k2 : Sock) (ops1 ops2 : List SockOp) (key : U160) (x y : StreamState)
    (h1 : k1.streams key = some x) (h2 : k2.streams key = some y) (hc : x.connection = y.connection) (d1 : .drop key ∉ ops1) (d2 : .drop key ∉ ops2)
    (d : Datagram) (hd : Dest key d) :
    ((Sock.run P bp k1 ops1).2.packetsFromDatagram bp d).1 = ((Sock.run P bp k2 ops2).2.packetsFromDatagram bp d).1 :=
  C115_decoding bp _ _ key _ _ (C44_history P bp ops1 k1 key x h1 d1) (C44_history P bp ops2 k2 key y h2 d2) hc d hd

/-- Instance: with and without the second client and the log. -/
example : ((Sock.run toy .debug Sock.bind (exHistory.take 1)).2.streams (.ofU64 7)).isSome = true ∧
    (tookAll toy .debug (Sock.run toy .debug Sock.bind (exHistory.take 1)).2 (.setLog true :: exHistory.drop 1)).map (·.addr) = [2, 1] ∧
    (tookAll toy .debug (Sock.run toy .debug Sock.bind (exHistory.take 1)).2 (exHistory.drop 2)).map (·.addr) = [1] ∧
    ¬ Dest (.ofU64 7) ⟨[0xc3, 0, 0, 0, 1, 8, 0, 0, 0, 0, 0, 0, 0, 6, 0, 9], 2⟩ := by
  refine ⟨by decide +kernel, by decide +kernel, by decide +kernel, ?_⟩
  intro h
  have ha : Addressed [0xc3, 0, 0, 0, 1, 8, 0, 0, 0, 0, 0, 0, 0, 6, 0, 9] .initial [0, 0, 0, 0, 0, 0, 0, 6] :=
    .inr ⟨0xc3, [0, 0, 0, 1], 8, 0, [], [9], 1, rfl, by decide, rfl, by decide, rfl, rfl, by decide, by decide⟩
  exact absurd ((dest_eq ha).mp h) (by decide +kernel)

end QuicSea
