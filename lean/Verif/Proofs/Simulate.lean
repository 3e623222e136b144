import Verif.Proofs.Concurrent
import Verif.Model.SockHistory
/-
The calls of `Verif.Model.Routing`, made by one thread while no other thread holds a lock, are runs of `Verif.Model.Concurrent`.
-/
namespace QuicSea
open Spec

variable {P : Prims} {bp : Profile}

theorem Sys.Run.append {s tr s' tr' s''} (h : Sys.Run P bp s tr s') (h' : Sys.Run P bp s' tr' s'') :
    Sys.Run P bp s (tr ++ tr') s'' := by
  induction h' with
  | nil => simpa using h
  | snoc _ hs ih => rw [← List.append_assoc]; exact .snoc ih hs

/-- The system with thread `t` at `p`, the others at `pcs`, and no lock poisoned. -/
def sysAt (pcs : Nat → Pc) (t : Nat) (k : Sock) (p : Pc) : Sys :=
  { sock := k, poisoned := fun _ => false, pc := fun t' => if t' = t then p else pcs t' }

/-- Thread `t` alone gets from `p`, `k` to `p'`, `k'`. -/
def Goes (P : Prims) (bp : Profile) (pcs : Nat → Pc) (t : Nat) (p : Pc) (k : Sock) (p' : Pc) (k' : Sock) : Prop :=
  ∃ tr, Sys.Run P bp (sysAt pcs t k p) tr (sysAt pcs t k' p')

variable {pcs : Nat → Pc} {t : Nat}

theorem Goes.refl (p k) : Goes P bp pcs t p k p k := ⟨[], .nil _⟩

theorem Goes.trans {p k p' k' p'' k''} (h : Goes P bp pcs t p k p' k') (h' : Goes P bp pcs t p' k' p'' k'') :
    Goes P bp pcs t p k p'' k'' := by
  obtain ⟨a, ha⟩ := h
  obtain ⟨b, hb⟩ := h'
  exact ⟨a ++ b, ha.append hb⟩

theorem sysAt_pc (k p) : (sysAt pcs t k p).pc t = p := by simp [sysAt]

theorem sysAt_goto (k p p') : (sysAt pcs t k p).goto t p' = sysAt pcs t k p' := by
  simp only [sysAt, Sys.goto, Sys.mk.injEq, true_and]
  funext t'
  split <;> rfl

theorem Goes.act {p k l p' k'} (h : Act P bp p k l p' k') : Goes P bp pcs t p k p' k' := by
  refine ⟨[] ++ [(t, l)], .snoc (.nil _) ?_⟩
  have hs := Sys.Step.act (P := P) (bp := bp) (sysAt pcs t k p) t l p' k' (by rw [sysAt_pc]; exact h)
  rw [sysAt_goto] at hs
  exact hs

theorem rank_ne {p p' : Pc} {l m} (h : p.wants = some (l, m, p')) (m') : (l, m') ∉ p.held := by
  intro hh
  cases p <;> simp only [Pc.wants, Option.some.injEq, Prod.mk.injEq, reduceCtorEq] at h <;> obtain ⟨rfl, -, -⟩ := h <;>
    simp [Pc.held] at hh

theorem Goes.acquire (hq : ∀ t, (pcs t).held = []) {p k l m p'} (h : p.wants = some (l, m, p')) : Goes P bp pcs t p k p' k := by
  refine ⟨[] ++ [(t, .tau)], .snoc (.nil _) ?_⟩
  have hs := Sys.Step.acquire (P := P) (bp := bp) (sysAt pcs t k p) t l m p' (by rw [sysAt_pc]; exact h)
    (by
      intro t' m' hh
      simp only [sysAt] at hh
      split at hh
      · exact absurd hh (rank_ne h m')
      · rw [hq] at hh; cases hh) rfl
  rw [sysAt_goto] at hs
  exact hs

theorem Goes.panic {p k} (h : Panics P bp p k) : Goes P bp pcs t p k .dead k := by
  refine ⟨[] ++ [(t, .panicked)], .snoc (.nil _) ?_⟩
  have hs := Sys.Step.panic (P := P) (bp := bp) (sysAt pcs t k p) t (by rw [sysAt_pc]; exact h)
  have e : (sysAt pcs t k p).kill t = sysAt pcs t k .dead := by
    have hw := panics_held h (fun d => panics_not_print h d)
    unfold Sys.kill
    rw [sysAt_goto, sysAt_pc]
    simp only [sysAt, Sys.mk.injEq, true_and, and_true]
    funext l
    rw [Bool.false_or, decide_eq_false (hw l)]
  rw [e] at hs
  exact hs

variable (hq : ∀ t, (pcs t).held = [])
include hq

/-- `recv_datagram`. -/
theorem goes_recvDatagram (k : Sock) (e : NetEvent) :
    (∀ d k', k.recvDatagram e = (.ok d, k') → Goes P bp pcs t .aLock k (.aParse d) k')
    ∧ (∀ k', k.recvDatagram e = (.ioErr, k') → Goes P bp pcs t .aLock k .idle k')
    ∧ (∀ w k', k.recvDatagram e ≠ (.panic w, k')) ∧ (∀ k', k.recvDatagram e ≠ (.blocked, k')) := by
  have h1 : Goes P bp pcs t .aLock k .aRecv k := .acquire hq rfl
  cases e with
  | ioError =>
    unfold Sock.recvDatagram
    refine ⟨by simp, ?_, by simp, by simp⟩
    rintro k' h
    cases h
    exact h1.trans (.act (.recvError k))
  | datagram raw addr =>
    obtain ⟨pr, hpr⟩ := Sock.recv_datagram k raw addr
    refine ⟨?_, by rw [hpr]; simp, by rw [hpr]; simp, by rw [hpr]; simp⟩
    intro d k' h
    have h2 : Goes P bp pcs t .aLock k (.aPrint ⟨raw.take Sock.RECV_BUFFER_LEN, addr⟩ k.logTraffic) k :=
      h1.trans ((Goes.act (.recv k raw addr)).trans ((Goes.acquire hq rfl).trans (.act (.flag k _))))
    rw [hpr] at h
    cases h
    unfold Sock.recvDatagram at hpr
    cases hl : k.logTraffic with
    | false =>
      rw [hl] at h2
      simp only [hl, Bool.false_eq_true, if_false, Prod.mk.injEq, true_and] at hpr
      rw [← hpr]
      exact h2.trans (.act (.noPrint k _))
    | true =>
      rw [hl] at h2
      have hnp := nextHeader_noPanic (makeResultStream (raw.take Sock.RECV_BUFFER_LEN))
      have h3 : Goes P bp pcs t .aLock k _ _ := h2.trans (.act (.print k _ hnp))
      simp only [hl, if_true] at hpr
      cases hn : (nextHeaderFromStream (makeResultStream (raw.take Sock.RECV_BUFFER_LEN))).1 with
      | panic w => rw [hn] at hnp; cases hnp
      | ok x =>
        simp only [hn, Prod.mk.injEq, true_and] at hpr h3
        rw [hl] at h3
        rw [← hpr]
        exact h3
      | err x =>
        simp only [hn, Prod.mk.injEq, true_and] at hpr h3
        rw [hl] at h3
        rw [← hpr]
        exact h3

/-- `route_datagram(..).unwrap()`. -/
theorem goes_route (k : Sock) (d : Datagram) :
    (∀ k', k.routeDatagram d = (.ok (), k') → Goes P bp pcs t (.aRoute d) k .aLock k')
    ∧ (∀ e k', k.routeDatagram d = (.err e, k') → Goes P bp pcs t (.aRoute d) k .dead k')
    ∧ (∀ w k', k.routeDatagram d ≠ (.panic w, k')) := by
  have hnp := nextHeader_noPanic (makeResultStream d.data)
  unfold Sock.routeDatagram
  cases hn : (nextHeaderFromStream (makeResultStream d.data)).1 with
  | ok x =>
    have h1 : Goes P bp pcs t (.aRoute d) k (.aSend d x.getDestinationId) k :=
      (Goes.act (.route k d x hn)).trans (.acquire hq rfl)
    cases hx : k.streams x.getDestinationId with
    | some s =>
      simp only [hx]
      refine ⟨?_, by simp, by simp⟩
      intro k' h
      cases h
      exact h1.trans (.act (.send k d _ s hx))
    | none =>
      simp only [hx]
      refine ⟨by simp, ?_, by simp⟩
      intro e k' h
      cases h
      exact h1.trans ((Goes.act (.sendMissing k d _ hx)).trans (.panic (.unwrap k d)))
  | err e =>
    refine ⟨by simp, ?_, by simp⟩
    intro e' k' h
    cases h
    exact (Goes.act (.routeError k d e hn)).trans (.panic (.unwrap k d))
  | panic w => rw [hn] at hnp; cases hnp

/-- src/routing.rs:77-103. -/
theorem goes_isNew (k : Sock) (d : Datagram) :
    (k.isNewInitial d = .ok true → Goes P bp pcs t (.aParse d) k (.aNew d) k)
    ∧ (k.isNewInitial d = .ok false → Goes P bp pcs t (.aParse d) k (.aRoute d) k)
    ∧ (∀ e, k.isNewInitial d = .err e → Goes P bp pcs t (.aParse d) k .dead k)
    ∧ (∀ w, k.isNewInitial d = .panic w → Goes P bp pcs t (.aParse d) k .dead k) := by
  have hnp := nextHeader_noPanic (makeResultStream d.data)
  unfold Sock.isNewInitial
  cases hn : (nextHeaderFromStream (makeResultStream d.data)).1 with
  | ok x =>
    cases hp : x.getPacketType with
    | ok ty =>
      simp only [hp, Out.ok_bind]
      by_cases hi : ty = .initial
      · subst hi
        have h1 : Goes P bp pcs t (.aParse d) k (.aCheck d x.getDestinationId) k :=
          (Goes.act (.parseInitial k d x hn hp)).trans (.acquire hq rfl)
        cases hx : k.streams x.getDestinationId with
        | none => exact ⟨fun _ => h1.trans (.act (.checkNew k d _ hx)), nofun, nofun, nofun⟩
        | some s => exact ⟨nofun, fun _ => h1.trans (.act (.checkKnown k d _ s hx)), nofun, nofun⟩
      · have h1 : Goes P bp pcs t (.aParse d) k (.aRoute d) k := Goes.act (.parseOther k d x ty hn hp hi)
        cases ty
        case initial => exact absurd rfl hi
        all_goals exact ⟨nofun, fun _ => h1, nofun, nofun⟩
    | err e =>
      have h1 : Goes P bp pcs t (.aParse d) k .dead k := Goes.panic (.packetType k d x hn (by rw [hp]; rfl))
      simp only [hp]
      exact ⟨nofun, nofun, fun _ _ => h1, nofun⟩
    | panic w =>
      have h1 : Goes P bp pcs t (.aParse d) k .dead k := Goes.panic (.packetType k d x hn (by rw [hp]; rfl))
      simp only [hp]
      exact ⟨nofun, nofun, nofun, fun _ _ => h1⟩
  | err e => exact ⟨nofun, fun _ => Goes.act (.parseError k d e hn), nofun, nofun⟩
  | panic w => rw [hn] at hnp; cases hnp

/-- The loop. -/
theorem goes_recvNew (net : List NetEvent) (k : Sock) :
    (∀ d k' net', k.recvNewInitialDatagram net = (.ok d, k', net') → Goes P bp pcs t .aLock k (.aNew d) k')
    ∧ (∀ r k' net', k.recvNewInitialDatagram net = (r, k', net') → (∀ d, r ≠ .ok d) →
        ∃ p, p.held = [] ∧ Goes P bp pcs t .aLock k p k') := by
  induction net generalizing k with
  | nil =>
    refine ⟨by simp [Sock.recvNewInitialDatagram], ?_⟩
    intro r k' net' h _
    cases h
    exact ⟨.aLock, rfl, .refl _ _⟩
  | cons e net ih =>
    obtain ⟨r1, r2, r3, r4⟩ := goes_recvDatagram (P := P) (bp := bp) (t := t) hq k e
    unfold Sock.recvNewInitialDatagram
    rcases hr : k.recvDatagram e with ⟨o, k1⟩
    cases o with
    | ok d =>
      have g1 := r1 d k1 hr
      obtain ⟨i1, i2, i3, i4⟩ := goes_isNew (P := P) (bp := bp) (t := t) hq k1 d
      dsimp only
      cases hi : k1.isNewInitial d with
      | ok b =>
        cases b with
        | true =>
          dsimp only
          refine ⟨?_, ?_⟩
          · intro d' k' net' h
            cases h
            exact g1.trans (i1 hi)
          · intro r k' net' h hne
            cases h
            exact absurd rfl (hne d)
        | false =>
          have g2 := g1.trans (i2 hi)
          obtain ⟨u1, u2, u3⟩ := goes_route (P := P) (bp := bp) (t := t) hq k1 d
          dsimp only
          rcases ho : k1.routeDatagram d with ⟨o, k2⟩
          cases o with
          | ok u =>
            have g3 := g2.trans (u1 k2 ho)
            dsimp only
            refine ⟨fun d' k' net' h => g3.trans ((ih k2).1 d' k' net' h), fun r k' net' h hne => ?_⟩
            obtain ⟨p, hp, g⟩ := (ih k2).2 r k' net' h hne
            exact ⟨p, hp, g3.trans g⟩
          | err x =>
            refine ⟨by simp, ?_⟩
            intro r k' net' h _
            cases h
            exact ⟨.dead, rfl, g2.trans (u2 x _ ho)⟩
          | panic w => exact absurd ho (u3 w k2)
      | err x =>
        refine ⟨by simp, ?_⟩
        intro r k' net' h _
        cases h
        exact ⟨.dead, rfl, g1.trans (i3 x hi)⟩
      | panic w =>
        refine ⟨by simp, ?_⟩
        intro r k' net' h _
        cases h
        exact ⟨.dead, rfl, g1.trans (i4 w hi)⟩
    | ioErr =>
      refine ⟨by simp, ?_⟩
      intro r k' net' h _
      cases h
      exact ⟨.idle, rfl, r2 _ hr⟩
    | panic w => exact absurd hr (r3 w k1)
    | blocked => exact absurd hr (r4 k1)

/-- The registration loop. -/
theorem goes_register (rng : List U64) (k : Sock) (s : StreamState) :
    (∀ key k' rng', k.register s rng = (.ok key, k', rng') → Goes P bp pcs t (.aRandom s) k (.aUnlock key) k')
    ∧ (∀ r k' rng', k.register s rng = (r, k', rng') → (∀ key, r ≠ .ok key) →
        ∃ p, p.held = [] ∧ Goes P bp pcs t (.aRandom s) k p k') := by
  induction rng with
  | nil =>
    refine ⟨by simp [Sock.register], ?_⟩
    intro r k' rng' h _
    cases h
    exact ⟨.aRandom s, rfl, .refl _ _⟩
  | cons v rng ih =>
    have g1 : Goes P bp pcs t (.aRandom s) k (.aContains s (.ofU64 v)) k := (Goes.act (.random k s v)).trans (.acquire hq rfl)
    unfold Sock.register
    cases hx : k.streams (.ofU64 v) with
    | none =>
      simp only [hx, Option.isNone_none, if_true]
      refine ⟨?_, ?_⟩
      · intro key k' rng' h
        cases h
        exact g1.trans ((Goes.act (.fresh k s _ hx)).trans ((Goes.acquire hq rfl).trans
          ((Goes.act (.setScid k s _)).trans (.act (.insert k _ _)))))
      · intro r k' rng' h hne
        cases h
        exact absurd rfl (hne _)
    | some x =>
      have g2 := g1.trans (.act (.taken k s _ x hx))
      simp only [hx, Option.isNone_some, Bool.false_eq_true, if_false]
      refine ⟨fun key k' rng' h => g2.trans (ih.1 key k' rng' h), fun r k' rng' h hne => ?_⟩
      obtain ⟨p, hp, g⟩ := ih.2 r k' rng' h hne
      exact ⟨p, hp, g2.trans g⟩

/-- `accept`. -/
theorem goes_accept (k : Sock) (net : List NetEvent) (rng : List U64) :
    ∃ p, p.held = [] ∧ Goes P bp pcs t .idle k p (k.accept P net rng).2.1 := by
  have g0 : Goes P bp pcs t .idle k .aLock k := Goes.act (.callAccept k)
  obtain ⟨n1, n2⟩ := goes_recvNew (P := P) (bp := bp) (t := t) hq net k
  unfold Sock.accept
  rcases hr : k.recvNewInitialDatagram net with ⟨o, k1, net1⟩
  cases o with
  | ok d =>
    have g1 := g0.trans (n1 d k1 net1 hr)
    dsimp only
    cases hc : Sock.newConnectionFor P d with
    | ok c =>
      have g2 := g1.trans (.act (.new k1 d c hc))
      obtain ⟨e1, e2⟩ := goes_register (P := P) (bp := bp) (t := t) hq rng k1 (.fromConnection c)
      dsimp only
      rcases hg : k1.register (.fromConnection c) rng with ⟨o, k2, rng2⟩
      cases o with
      | ok key =>
        have g3 := g2.trans ((e1 key k2 rng2 hg).trans ((Goes.act (.unlock k2 key)).trans (.acquire hq rfl)))
        dsimp only
        cases hx : k2.streams key with
        | some x => exact ⟨.dead, rfl, g3.trans ((Goes.act (.get k2 key x hx)).trans (.panic (.todo k2 key)))⟩
        | none => exact ⟨.dead, rfl, g3.trans (.panic (.get k2 key hx))⟩
      | _ =>
        obtain ⟨p, hp, g⟩ := e2 _ k2 rng2 hg nofun
        exact ⟨p, hp, g2.trans g⟩
    | err e => exact ⟨.dead, rfl, g1.trans (.panic (.new k1 d (by rw [hc]; rfl)))⟩
    | panic w => exact ⟨.dead, rfl, g1.trans (.panic (.new k1 d (by rw [hc]; rfl)))⟩
  | _ =>
    obtain ⟨p, hp, g⟩ := n2 _ k1 net1 hr nofun
    exact ⟨p, hp, g0.trans g⟩

/-- `packets_from_datagram`. -/
theorem goes_packets (k : Sock) (d : Datagram) :
    ∃ p, p.held = [] ∧ Goes P bp pcs t .idle k p (k.packetsFromDatagram bp d).2 := by
  have g0 : Goes P bp pcs t .idle k (.pParse d) k := Goes.act (.callPackets k d)
  unfold Sock.packetsFromDatagram
  dsimp only
  cases hn : (nextHeaderFromStream (makeResultStream d.data)).1 with
  | ok x =>
    have g1 := g0.trans ((Goes.act (.packetsParse k d x hn)).trans (.acquire hq rfl))
    dsimp only
    cases hx : k.streams x.getDestinationId with
    | none => exact ⟨.idle, rfl, g1.trans (.act (.packetsMissing k d _ hx))⟩
    | some s =>
      have g2 := g1.trans ((Goes.act (.packetsGet k d _ s hx)).trans (.acquire hq rfl))
      dsimp only
      cases hd : (decodePackets bp s.connection (makeResultStream d.data)).1 with
      | ok ps =>
        have g3 := g2.trans ((Goes.act (.decode k d _ s ps hx hd)).trans ((Goes.acquire hq rfl).trans (.act (.packetsFlag k ps))))
        refine ⟨.idle, rfl, g3.trans ?_⟩
        cases hl : k.logTraffic with
        | true =>
          have g := Goes.act (P := P) (bp := bp) (pcs := pcs) (t := t) (.packetsPrint k ps)
          rw [hl] at g
          exact g
        | false => exact Goes.act (.packetsNoPrint k ps)
      | err e => exact ⟨.idle, rfl, g2.trans (.act (.decodeError k d _ s e hx hd))⟩
      | panic w => exact ⟨.dead, rfl, g2.trans (.panic (.decode k d _ s w hx hd))⟩
  | err e => exact ⟨.idle, rfl, g0.trans (.act (.packetsParseError k d e hn))⟩
  | panic w => exact ⟨.dead, rfl, g0.trans (.panic (.packetsParse k d w hn))⟩
omit hq

/-- The calls other threads can make (`route_datagram` is private and only called by `accept`). -/
def SockOp.call : SockOp → Bool
  | .route _ => false
  | _ => true

theorem goes_call (hq : ∀ t, (pcs t).held = []) (k : Sock) (op : SockOp) (hop : op.call = true) :
    ∃ p, p.held = [] ∧ Goes P bp pcs t .idle k p (k.step P bp op).2 := by
  cases op with
  | accept net rng => exact goes_accept hq k net rng
  | route d => cases hop
  | packets d => exact goes_packets hq k d
  | drop cid =>
    exact ⟨.idle, rfl, (Goes.act (.callDrop k cid)).trans ((Goes.acquire hq rfl).trans (.act (.remove k cid)))⟩
  | setLog flag =>
    exact ⟨.idle, rfl, (Goes.act (.callSetLog k flag)).trans ((Goes.acquire hq rfl).trans (.act (.setLog k flag)))⟩

/-- Every history of calls one after the other is a run: each call by a thread of its own. -/
theorem run_of_history (ops : List SockOp) (hops : ∀ op ∈ ops, op.call = true) (k : Sock) (n : Nat) (pcs : Nat → Pc)
    (hq : ∀ t, (pcs t).held = []) (hn : ∀ t, n ≤ t → pcs t = .idle) :
    ∃ tr pcs', Sys.Run P bp { sock := k, poisoned := fun _ => false, pc := pcs } tr
        { sock := (Sock.run P bp k ops).2, poisoned := fun _ => false, pc := pcs' }
      ∧ (∀ t, (pcs' t).held = []) ∧ ∃ n', ∀ t, n' ≤ t → pcs' t = .idle := by
  induction ops generalizing k n pcs with
  | nil => exact ⟨[], pcs, .nil _, hq, n, hn⟩
  | cons op ops ih =>
    obtain ⟨p, hp, tr, hr⟩ := goes_call (P := P) (bp := bp) (t := n) hq k op (hops op List.mem_cons_self)
    have e : sysAt pcs n k .idle = { sock := k, poisoned := fun _ => false, pc := pcs } := by
      simp only [sysAt, Sys.mk.injEq, true_and]
      funext t
      split
      · rename_i h; rw [h, hn n (Nat.le_refl _)]
      · rfl
    rw [e] at hr
    obtain ⟨tr', pcs', hr', h1, h2⟩ := ih (fun op h => hops op (List.mem_cons_of_mem _ h)) (k.step P bp op).2 (n + 1)
      (fun t' => if t' = n then p else pcs t')
      (by intro t'; split; exact hp; exact hq t')
      (by intro t' h; rw [if_neg (by omega)]; exact hn t' (by omega))
    exact ⟨tr ++ tr', pcs', hr.append hr', h1, h2⟩

end QuicSea
