import Verif.Props.Concurrent
/-
C88: calls on one socket by several threads at once, against calls one after the other.
-/
namespace QuicSea
open Spec Sock

variable {P : Prims} {bp : Profile}

/-- C88, full statement: whatever several threads do at the same time, the connections and their queues are what some calls, made one
after the other, leave behind. -/
def C88For (P : Prims) : Prop := ∀ (bp : Profile) tr s, Sys.Run P bp Sys.init tr s →
  ∃ ops : List SockOp, (∀ op ∈ ops, op.call = true) ∧ (Sock.run P bp Sock.bind ops).2.streams = s.sock.streams
/-- The claim, for all algorithms that obey the laws. -/
def C88Statement : Prop := ∀ P, PrimLaws P → C88For P

/-! ### one call after the other -/

theorem sockRun_append (P : Prims) (bp : Profile) (a b : List SockOp) (k : Sock) :
    (Sock.run P bp k (a ++ b)).2 = (Sock.run P bp (Sock.run P bp k a).2 b).2 := by
  induction a generalizing k with
  | nil => rfl
  | cons op a ih => exact ih _

/-- No two connections were each opened by a datagram for the id of the other. -/
def Uncrossed (k : Sock) : Prop := ∀ key key' x x', key ≠ key' → k.streams key = some x → k.streams key' = some x' →
  ¬ (x.connection.dcid.1 = key' ∧ x'.connection.dcid.1 = key)

/-- Every connection of the one was in the other, but for its queue. -/
def Kept (k k' : Sock) : Prop := ∀ key x', k'.streams key = some x' → ∃ x, k.streams key = some x ∧ x'.connection = x.connection

theorem Kept.refl (k : Sock) : Kept k k := fun _ x h => ⟨x, h, rfl⟩
theorem Kept.trans {k k' k''} (h : Kept k k') (h' : Kept k' k'') : Kept k k'' := by
  intro key x'' hx
  obtain ⟨x', hx', e'⟩ := h' key x'' hx
  obtain ⟨x, hx, e⟩ := h key x' hx'
  exact ⟨x, hx, e'.trans e⟩
theorem Kept.of_eq {k k' : Sock} (h : k'.streams = k.streams) : Kept k k' := by
  intro key x hx
  rw [h] at hx
  exact ⟨x, hx, rfl⟩

theorem Uncrossed.kept {k k'} (h : Uncrossed k) (hk : Kept k k') : Uncrossed k' := by
  intro key key' x x' hne hx hx' hc
  obtain ⟨y, hy, e⟩ := hk key x hx
  obtain ⟨y', hy', e'⟩ := hk key' x' hx'
  rw [e, e'] at hc
  exact h key key' y y' hne hy hy' hc

theorem recv_streams (k : Sock) (e : NetEvent) : (k.recvDatagram e).2.streams = k.streams := by
  cases e with
  | ioError => rfl
  | datagram raw addr =>
    obtain ⟨p, h⟩ := recv_datagram k raw addr
    rw [h]

theorem route_kept (k : Sock) (d : Datagram) : Kept k (k.routeDatagram d).2 := by
  unfold routeDatagram
  cases (nextHeaderFromStream (makeResultStream d.data)).1 with
  | ok h =>
    dsimp only
    cases hx : k.streams h.getDestinationId with
    | none => exact .refl k
    | some x =>
      intro key x' hx'
      dsimp only [tableInsert] at hx'
      split at hx'
      · rename_i e
        cases hx'
        exact ⟨x, by rw [e, hx], rfl⟩
      · exact ⟨x', hx', rfl⟩
  | err e => exact .refl k
  | panic w => exact .refl k

theorem isNew_true {k : Sock} {d : Datagram} (h : k.isNewInitial d = .ok true) :
    ∃ hd, (nextHeaderFromStream (makeResultStream d.data)).1 = .ok hd ∧ k.streams hd.getDestinationId = none := by
  unfold isNewInitial at h
  cases hn : (nextHeaderFromStream (makeResultStream d.data)).1 with
  | ok x =>
    refine ⟨x, rfl, ?_⟩
    simp only [hn] at h
    obtain ⟨ty, -, h⟩ := Out.bind_eq_ok h
    cases ty <;> simp only [pure, Out.ok.injEq, Option.isNone_iff_eq_none, reduceCtorEq] at h
    exact h
  | err e => simp only [hn] at h; cases h
  | panic w => simp only [hn] at h; cases h

theorem recvNew_kept (net : List NetEvent) (k : Sock) :
    Kept k (k.recvNewInitialDatagram net).2.1 ∧ ∀ d, (k.recvNewInitialDatagram net).1 = .ok d →
      ∃ hd, (nextHeaderFromStream (makeResultStream d.data)).1 = .ok hd ∧ (k.recvNewInitialDatagram net).2.1.streams hd.getDestinationId = none := by
  induction net generalizing k with
  | nil => exact ⟨.refl k, nofun⟩
  | cons e net ih =>
    have hr := recv_streams k e
    unfold recvNewInitialDatagram
    rcases hd : k.recvDatagram e with ⟨o, k1⟩
    rw [hd] at hr
    have h1 : Kept k k1 := .of_eq hr
    cases o with
    | ok d =>
      dsimp only
      cases hi : k1.isNewInitial d with
      | ok b =>
        cases b with
        | true =>
          refine ⟨h1, ?_⟩
          intro d' h
          cases h
          exact isNew_true hi
        | false =>
          dsimp only
          have h2 := route_kept k1 d
          rcases ho : k1.routeDatagram d with ⟨o, k2⟩
          rw [ho] at h2
          cases o with
          | ok u =>
            obtain ⟨i1, i2⟩ := ih k2
            exact ⟨h1.trans (h2.trans i1), i2⟩
          | err e => exact ⟨h1.trans h2, nofun⟩
          | panic w => exact ⟨h1.trans h2, nofun⟩
      | err e => exact ⟨h1, nofun⟩
      | panic w => exact ⟨h1, nofun⟩
    | ioErr => exact ⟨h1, nofun⟩
    | panic w => exact ⟨h1, nofun⟩
    | blocked => exact ⟨h1, nofun⟩

theorem newConnectionFor_dcid {d : Datagram} {c hd} (h : newConnectionFor P d = .ok c)
    (hh : (nextHeaderFromStream (makeResultStream d.data)).1 = .ok hd) : c.dcid.1 = hd.getDestinationId := by
  unfold newConnectionFor at h
  rw [hh] at h
  simp only [Out.unwrap, Out.ok_bind] at h
  cases hn : Connection.new P true .v1 hd.getDestinationId hd.getDestinationIdLength.toNat with
  | ok c' =>
    rw [hn] at h
    cases h
    obtain ⟨_, _, _, _, _, _, rfl⟩ := new_ok' hn
    rfl
  | err e => rw [hn] at h; cases h
  | panic w => rw [hn] at h; cases h

theorem register_table (k : Sock) (s : StreamState) (rng : List U64) :
    (k.register s rng).2.1 = k ∨ ∃ key, k.streams key = none ∧
      (k.register s rng).2.1.streams = tableInsert k.streams key { s with connection := s.connection.setScid key 8 } := by
  induction rng with
  | nil => exact .inl rfl
  | cons v rng ih =>
    unfold register
    cases hx : k.streams (.ofU64 v) with
    | none => exact .inr ⟨_, hx, by simp only [hx, Option.isNone_none, if_true]⟩
    | some x =>
      simp only [hx, Option.isNone_some, Bool.false_eq_true, if_false]
      exact ih

/-- A new connection whose opening datagram was not for a registered id crosses no other. -/
theorem uncrossed_insert {k : Sock} (h : Uncrossed k) {key x} (hx : k.streams x.connection.dcid.1 = none) (k' : Sock)
    (hk : k'.streams = tableInsert k.streams key x) : Uncrossed k' := by
  intro a b y z hab hy hz hc
  rw [hk] at hy hz
  unfold tableInsert at hy hz
  split at hy
  · split at hz
    · rename_i e1 e2; exact hab (e1.trans e2.symm)
    · cases hy
      rw [hc.1, hz] at hx
      cases hx
  · split at hz
    · cases hz
      rw [hc.2, hy] at hx
      cases hx
    · exact h a b y z hab hy hz hc

theorem accept_uncrossed {k : Sock} (h : Uncrossed k) (net : List NetEvent) (rng : List U64) : Uncrossed (k.accept P net rng).2.1 := by
  obtain ⟨h1, h2⟩ := recvNew_kept net k
  unfold accept
  rcases hr : k.recvNewInitialDatagram net with ⟨o, k1, net1⟩
  rw [hr] at h1 h2
  have hk1 : Uncrossed k1 := h.kept h1
  cases o with
  | ok d =>
    dsimp only
    cases hc : newConnectionFor P d with
    | ok c =>
      obtain ⟨hd, hh, hn⟩ := h2 d rfl
      have hdc := newConnectionFor_dcid hc hh
      dsimp only at hn
      rw [← hdc] at hn
      dsimp only
      have ht := register_table k1 (.fromConnection c) rng
      have hk2 : Uncrossed (k1.register (.fromConnection c) rng).2.1 := by
        rcases ht with e | ⟨key, -, e⟩
        · rw [e]; exact hk1
        · exact uncrossed_insert hk1 (x := { (StreamState.fromConnection c) with connection := (StreamState.fromConnection c).connection.setScid key 8 }) hn _ e
      rcases hg : k1.register (.fromConnection c) rng with ⟨o, k2, rng2⟩
      rw [hg] at hk2
      cases o with
      | ok key =>
        dsimp only
        cases k2.streams key with
        | some x => exact hk2
        | none => exact hk2
      | ioErr => exact hk2
      | panic w => exact hk2
      | blocked => exact hk2
    | err e => exact hk1
    | panic w => exact hk1
  | ioErr => exact hk1
  | panic w => exact hk1
  | blocked => exact hk1

theorem packets_streams (k : Sock) (d : Datagram) : (k.packetsFromDatagram bp d).2.streams = k.streams := by
  unfold packetsFromDatagram
  dsimp only
  cases (nextHeaderFromStream (makeResultStream d.data)).1 with
  | ok h =>
    dsimp only
    cases k.streams h.getDestinationId with
    | none => rfl
    | some x =>
      dsimp only
      cases (decodePackets bp x.connection (makeResultStream d.data)).1 with
      | ok ps => dsimp only; split <;> rfl
      | err e => rfl
      | panic w => rfl
  | err e => rfl
  | panic w => rfl

theorem step_uncrossed {k : Sock} (h : Uncrossed k) (op : SockOp) : Uncrossed (k.step P bp op).2 := by
  cases op with
  | accept net rng => exact accept_uncrossed h net rng
  | route d => exact h.kept (route_kept k d)
  | packets d => exact h.kept (.of_eq (packets_streams k d))
  | drop cid =>
    refine h.kept ?_
    intro key x hx
    simp only [step, dropConnection, tableRemove] at hx
    split at hx
    · cases hx
    · exact ⟨x, hx, rfl⟩
  | setLog flag => exact h.kept (.of_eq rfl)

/-- C88: calls one after the other never leave two connections that were each opened by a datagram for the id of the other. -/
theorem C88_serial_uncrossed (P : Prims) (bp : Profile) (ops : List SockOp) (key key' : U160) (x x' : StreamState) (hne : key ≠ key')
    (hx : (Sock.run P bp Sock.bind ops).2.streams key = some x) (hx' : (Sock.run P bp Sock.bind ops).2.streams key' = some x') :
    ¬ (x.connection.dcid.1 = key' ∧ x'.connection.dcid.1 = key) := by
  have hg : ∀ (ops : List SockOp) (k : Sock), Uncrossed k → Uncrossed (Sock.run P bp k ops).2 := by
    intro ops
    induction ops with
    | nil => exact fun k h => h
    | cons op ops ih => exact fun k h => ih _ (step_uncrossed h op)
  exact hg ops _ (by intro a b y z _ hy; cases hy) key key' x x' hne hx hx'

/-! ### two at once -/

theorem recvNew_opens {k : Sock} {raw : Bytes} {addr : Nat} {id : Bytes} {key : U160}
    (ha : Addressed (raw.take RECV_BUFFER_LEN) .initial id) (hk : cidVal key = beNat id) (hx : k.streams key = none) (hl : k.logTraffic = false) :
    k.recvNewInitialDatagram [.datagram raw addr] = (.ok ⟨raw.take RECV_BUFFER_LEN, addr⟩, k, []) := by
  have h := isNew_addressed (k := k) (d := ⟨raw.take RECV_BUFFER_LEN, addr⟩) ha (hk.trans (if_neg (by decide)).symm)
  rw [hx] at h
  unfold recvNewInitialDatagram recvDatagram
  simp only [hl, Bool.false_eq_true, if_false, h, decide_true, Option.isNone_none, Bool.and_self]

theorem register_one {k : Sock} {s : StreamState} {v : U64} (hx : k.streams (.ofU64 v) = none) :
    k.register s [v] = (.ok (.ofU64 v), { k with streams := tableInsert k.streams (.ofU64 v) { s with connection := s.connection.setScid (.ofU64 v) 8 } }, []) := by
  unfold register
  simp only [hx, Option.isNone_none, if_true]

/-- C88 fails for any two ids: two threads in `accept` each receive an Initial packet, the first for `w` and the second for `v`, neither of
which is registered; then the first registers its connection as `v` and the second as `w`. -/
theorem C88_crossing (hP : PrimLaws P) (bp : Profile) (v w : U64) (hvw : v ≠ w) (raw raw' : Bytes) (a a' : Nat) (id id' : Bytes)
    (ha : Addressed (raw.take RECV_BUFFER_LEN) .initial id) (hid : beNat id = w.toNat)
    (ha' : Addressed (raw'.take RECV_BUFFER_LEN) .initial id') (hid' : beNat id' = v.toNat) :
    ∃ tr s x x', Sys.Run P bp Sys.init tr s ∧ s.sock.streams (.ofU64 v) = some x ∧ s.sock.streams (.ofU64 w) = some x'
      ∧ x.connection.dcid.1 = .ofU64 w ∧ x'.connection.dcid.1 = .ofU64 v := by
  have hkw : cidVal (.ofU64 w) = beNat id := by rw [hid]; exact cidVal_ofU64 w
  have hkv : cidVal (.ofU64 v) = beNat id' := by rw [hid']; exact cidVal_ofU64 v
  have hne : U160.ofU64 w ≠ U160.ofU64 v := by
    intro e
    have := congrArg cidVal e
    rw [cidVal_ofU64, cidVal_ofU64] at this
    exact hvw (BitVec.eq_of_toNat_eq this.symm)
  obtain ⟨c, hc, hcd, -⟩ := newConnection_ok hP (d := ⟨raw.take RECV_BUFFER_LEN, a⟩) ha (hkw.trans (if_neg (by decide)).symm)
    (addressed_short ha (by decide))
  obtain ⟨c', hc', hcd', -⟩ := newConnection_ok hP (d := ⟨raw'.take RECV_BUFFER_LEN, a'⟩) ha' (hkv.trans (if_neg (by decide)).symm)
    (addressed_short ha' (by decide))
  have hp0 : ∀ t : Nat, ((fun _ => Pc.idle) t).held = [] := fun _ => rfl
  -- the first thread finds its datagram to be new
  obtain ⟨tr1, g1⟩ : Goes P bp (fun _ => .idle) 0 .idle Sock.bind (.aRandom (.fromConnection c)) Sock.bind :=
    (Goes.act (.callAccept _)).trans (((goes_recvNew hp0 _ Sock.bind).1 _ _ _ (recvNew_opens (k := Sock.bind) (addr := a) ha hkw rfl rfl)).trans
      (Goes.act (.new _ _ c hc)))
  -- the second thread does too, and registers its connection
  let pcs1 : Nat → Pc := fun t => if t = 0 then .aRandom (.fromConnection c) else .idle
  have hp1 : ∀ t, (pcs1 t).held = [] := by intro t; dsimp only [pcs1]; split <;> rfl
  obtain ⟨tr2, g2⟩ : Goes P bp pcs1 1 .idle Sock.bind (.aGetLock (.ofU64 w)) _ :=
    (Goes.act (.callAccept _)).trans (((goes_recvNew hp1 _ Sock.bind).1 _ _ _ (recvNew_opens (k := Sock.bind) (addr := a') ha' hkv rfl rfl)).trans
      ((Goes.act (.new _ _ c' hc')).trans (((goes_register hp1 [w] Sock.bind (.fromConnection c')).1 _ _ _ (register_one rfl)).trans
        (Goes.act (.unlock _ _)))))
  -- the first thread registers its connection
  let pcs2 : Nat → Pc := fun t => if t = 1 then .aGetLock (.ofU64 w) else .idle
  have hp2 : ∀ t, (pcs2 t).held = [] := by intro t; dsimp only [pcs2]; split <;> rfl
  let x2 : StreamState := { (StreamState.fromConnection c') with connection := (StreamState.fromConnection c').connection.setScid (.ofU64 w) 8 }
  let k2 : Sock := { Sock.bind with streams := tableInsert Sock.bind.streams (.ofU64 w) x2 }
  have hk2 : k2.streams (.ofU64 v) = none := tableInsert_other hne.symm
  obtain ⟨tr3, g3⟩ := (goes_register (P := P) (bp := bp) (t := 0) hp2 [v] k2 (.fromConnection c)).1 _ _ _ (register_one hk2)
  have e0 : sysAt (fun _ => .idle) 0 Sock.bind .idle = Sys.init := by
    simp only [sysAt, Sys.init, Sys.mk.injEq, true_and]
    funext t
    split <;> rfl
  have e1 : sysAt (fun _ => .idle) 0 Sock.bind (.aRandom (.fromConnection c)) = sysAt pcs1 1 Sock.bind .idle := by
    simp only [sysAt, pcs1, Sys.mk.injEq, true_and]
    funext t
    by_cases h0 : t = 0
    · subst h0; rfl
    · rw [if_neg h0]; split <;> rfl
  have e2 : sysAt pcs1 1 k2 (.aGetLock (.ofU64 w)) = sysAt pcs2 0 k2 (.aRandom (.fromConnection c)) := by
    simp only [sysAt, pcs1, pcs2, Sys.mk.injEq, true_and]
    funext t
    by_cases h0 : t = 0
    · subst h0; rfl
    · rw [if_neg h0, if_neg h0]
  rw [e0, e1] at g1
  have g2 : Sys.Run P bp (sysAt pcs1 1 Sock.bind .idle) tr2 (sysAt pcs1 1 k2 (.aGetLock (.ofU64 w))) := g2
  rw [e2] at g2
  refine ⟨_, _, _, _, (g1.append g2).append g3, tableInsert_same .., (tableInsert_other hne).trans (tableInsert_same ..), ?_, ?_⟩
  · show c.dcid.1 = _
    rw [hcd]
  · show c'.dcid.1 = _
    rw [hcd']

/-- Initial packets for 6 and 5, while 5 and 6 are drawn. -/
def exCross (n : U8) : Bytes := [0xc3, 0, 0, 0, 1, 8, 0, 0, 0, 0, 0, 0, 0, n, 0, 0]
theorem exCross_addressed (n : U8) : Addressed ((exCross n).take RECV_BUFFER_LEN) .initial [0, 0, 0, 0, 0, 0, 0, n] :=
  .inr ⟨0xc3, [0, 0, 0, 1], 8, 0, [], [0], 1, rfl, by decide, rfl, rfl, rfl, rfl, fun _ => ⟨by simp, by simp⟩, by decide⟩
theorem exCross_val (n : U8) : beNat [0, 0, 0, 0, 0, 0, 0, n] = n.toNat := by simp [beNat]

theorem C88_false : ¬ C88Statement := by
  intro h
  obtain ⟨tr, s, x, x', hr, h1, h2, h3, h4⟩ := C88_crossing toy_laws .debug 5 6 (by decide) (exCross 6) (exCross 5) 1 2 _ _
    (exCross_addressed 6) (exCross_val 6) (exCross_addressed 5) (exCross_val 5)
  obtain ⟨ops, -, e⟩ := h toy toy_laws .debug tr s hr
  rw [← e] at h1 h2
  exact C88_serial_uncrossed toy .debug ops _ _ x x' (by decide) h1 h2 ⟨h3, h4⟩

/-! ### a datagram for a connection that is being dropped -/

/-- C88: `accept`, when no other call is going on, never fails on an Initial packet: it opens a connection or delivers it. -/
theorem C88_serial_initial (k : Sock) (raw : Bytes) (addr : Nat) (id : Bytes) (ha : Addressed (raw.take RECV_BUFFER_LEN) .initial id) :
    (k.recvNewInitialDatagram [.datagram raw addr]).1 = .ok ⟨raw.take RECV_BUFFER_LEN, addr⟩ ∨
    ((k.recvNewInitialDatagram [.datagram raw addr]).1 = .blocked ∧ ∃ key x, cidVal key = beNat id ∧ k.streams key = some x ∧
      (k.recvNewInitialDatagram [.datagram raw addr]).2.1.streams key = some { x with queue := x.queue ++ [⟨raw.take RECV_BUFFER_LEN, addr⟩] }) := by
  obtain ⟨key, hk⟩ := u160_of_val (beNat id) (beNat_lt_160 (addressed_short ha (by decide)))
  obtain ⟨p, hp⟩ := recv_datagram k raw addr
  have hi := isNew_addressed (k := { k with printed := p }) (d := ⟨raw.take RECV_BUFFER_LEN, addr⟩) ha (hk.trans (if_neg (by decide)).symm)
  unfold recvNewInitialDatagram
  simp only [hp, hi]
  cases hx : k.streams key with
  | none => left; rfl
  | some x =>
    right
    have hr := route_known (k := { k with printed := p }) (d := ⟨raw.take RECV_BUFFER_LEN, addr⟩) ha (hk.trans (if_neg (by decide)).symm) hx
    simp only [decide_true, Option.isNone_some, Bool.and_false, hr]
    exact ⟨rfl, key, x, hk, hx, tableInsert_same ..⟩

/-- C88 fails for every id also in what a call returns: a thread finds the Initial packet it received to be for a registered connection,
another drops the connection, and the first cannot deliver the packet and panics. -/
theorem C88_drop_race (hP : PrimLaws P) (bp : Profile) (v : U64) (raw raw' : Bytes) (a a' : Nat) (id id' : Bytes)
    (ha : Addressed (raw.take RECV_BUFFER_LEN) .initial id)
    (ha' : Addressed (raw'.take RECV_BUFFER_LEN) .initial id') (hid' : beNat id' = v.toNat) :
    ∃ tr s s', Sys.Run P bp Sys.init tr s ∧ receivedBy 1 tr = handledBy 1 tr ++ [⟨raw'.take RECV_BUFFER_LEN, a'⟩]
      ∧ Sys.Step P bp s 1 .panicked s' ∧ s'.pc 1 = .dead := by
  obtain ⟨key, hk⟩ := u160_of_val (beNat id) (beNat_lt_160 (addressed_short ha (by decide)))
  have hkv : cidVal (.ofU64 v) = beNat id' := by rw [hid']; exact cidVal_ofU64 v
  obtain ⟨c, hc, -⟩ := newConnection_ok hP (d := ⟨raw.take RECV_BUFFER_LEN, a⟩) ha (hk.trans (if_neg (by decide)).symm)
    (addressed_short ha (by decide))
  have hp0 : ∀ t : Nat, ((fun _ => Pc.idle) t).held = [] := fun _ => rfl
  -- a connection is opened as `v`
  let x1 : StreamState := { (StreamState.fromConnection c) with connection := (StreamState.fromConnection c).connection.setScid (.ofU64 v) 8 }
  let k1 : Sock := { Sock.bind with streams := tableInsert Sock.bind.streams (.ofU64 v) x1 }
  have hx1 : k1.streams (.ofU64 v) = some x1 := tableInsert_same ..
  obtain ⟨tr1, g1⟩ : Goes P bp (fun _ => .idle) 0 .idle Sock.bind (.aGetLock (.ofU64 v)) k1 :=
    (Goes.act (.callAccept _)).trans (((goes_recvNew hp0 _ Sock.bind).1 _ _ _ (recvNew_opens (k := Sock.bind) (addr := a) ha hk rfl rfl)).trans
      ((Goes.act (.new _ _ c hc)).trans (((goes_register hp0 [v] Sock.bind (.fromConnection c)).1 _ _ _ (register_one rfl)).trans
        (Goes.act (.unlock _ _)))))
  -- another thread receives a packet for it
  let d : Datagram := ⟨raw'.take RECV_BUFFER_LEN, a'⟩
  obtain ⟨hd, s0, hh, -, hv, -⟩ := addressed_header ha'
  have hdest : hd.getDestinationId = .ofU64 v := cidVal_inj (hv.trans ((if_neg (by decide)).trans hkv.symm))
  have hh : (nextHeaderFromStream (makeResultStream d.data)).1 = .ok hd := by rw [hh]
  have hnew : k1.isNewInitial d = .ok false := by
    rw [isNew_addressed (k := k1) (d := d) ha' (hkv.trans (if_neg (by decide)).symm), hx1]
    rfl
  let pcs1 : Nat → Pc := fun t => if t = 0 then .aGetLock (.ofU64 v) else .idle
  have hp1 : ∀ t, (pcs1 t).held = [] := by intro t; dsimp only [pcs1]; split <;> rfl
  have hrecv : k1.recvDatagram (.datagram raw' a') = (.ok d, k1) := rfl
  obtain ⟨tr2, g2⟩ : Goes P bp pcs1 1 .idle k1 (.aSendLock d hd.getDestinationId) k1 :=
    (Goes.act (.callAccept _)).trans (((goes_recvDatagram hp1 k1 _).1 _ _ hrecv).trans
      (((goes_isNew hp1 k1 d).2.1 hnew).trans (Goes.act (.route _ _ hd hh))))
  rw [hdest] at g2
  -- the connection is dropped
  let pcs2 : Nat → Pc := fun t => if t = 0 then .aGetLock (.ofU64 v) else if t = 1 then .aSendLock d (.ofU64 v) else .idle
  have hp2 : ∀ t, (pcs2 t).held = [] := by intro t; dsimp only [pcs2]; split; rfl; split <;> rfl
  let k2 : Sock := k1.dropConnection (.ofU64 v)
  obtain ⟨tr3, g3⟩ : Goes P bp pcs2 2 .idle k1 .idle k2 :=
    (Goes.act (.callDrop _ _)).trans ((Goes.acquire hp2 rfl).trans (.act (.remove _ _)))
  -- the packet cannot be delivered
  obtain ⟨tr4, g4⟩ : Goes P bp pcs1 1 (.aSendLock d (.ofU64 v)) k2 (.aUnwrap d) k2 :=
    (Goes.acquire hp1 rfl).trans (.act (.sendMissing _ _ _ (tableRemove_same ..)))
  have e0 : sysAt (fun _ => .idle) 0 Sock.bind .idle = Sys.init := by
    simp only [sysAt, Sys.init, Sys.mk.injEq, true_and]
    funext t
    split <;> rfl
  have e1 : sysAt (fun _ => .idle) 0 k1 (.aGetLock (.ofU64 v)) = sysAt pcs1 1 k1 .idle := by
    simp only [sysAt, pcs1, Sys.mk.injEq, true_and]
    funext t
    by_cases h0 : t = 0
    · subst h0; rfl
    · rw [if_neg h0]; split <;> rfl
  have e2 : ∀ k, sysAt pcs1 1 k (.aSendLock d (.ofU64 v)) = sysAt pcs2 2 k .idle := by
    intro k
    simp only [sysAt, pcs1, pcs2, Sys.mk.injEq, true_and]
    funext t
    by_cases h0 : t = 0
    · subst h0; rfl
    · by_cases h1 : t = 1
      · subst h1; rfl
      · rw [if_neg h0, if_neg h1]; split <;> rfl
  rw [e0, e1] at g1
  rw [e2] at g2 g4
  have hr := ((g1.append g2).append g3).append g4
  have hpc : (sysAt pcs1 1 k2 (.aUnwrap d)).pc 1 = .aUnwrap d := sysAt_pc ..
  obtain ⟨rest, l1, -, l3⟩ := C44_lossless hr 1
  rw [hpc] at l3
  rw [l3 (by simp)] at l1
  exact ⟨_, _, _, hr, l1, .panic _ 1 (by rw [hpc]; exact .unwrap k2 d), by simp [Sys.kill, Sys.goto]⟩

example : ∃ tr s s', Sys.Run toy .debug Sys.init tr s ∧ receivedBy 1 tr = handledBy 1 tr ++ [⟨(exCross 6).take RECV_BUFFER_LEN, 2⟩]
    ∧ Sys.Step toy .debug s 1 .panicked s' ∧ s'.pc 1 = .dead :=
  C88_drop_race toy_laws .debug 6 (exCross 5) (exCross 6) 1 2 _ _ (exCross_addressed 5) (exCross_addressed 6) (exCross_val 6)

/-! ### runs that can be put in order -/

/-- No connection is registered under the id for which another was opened. -/
def NoCrossing (tr : List (Nat × Label)) : Prop := ∀ t key x t' key' x', (t, Label.registered key x) ∈ tr → (t', Label.registered key' x') ∈ tr →
  key' = x.connection.dcid.1 → key' = key

/-- Which call, made alone, does the same as an event of a run. -/
inductive Does (P : Prims) : Label → SockOp → Prop where
  | sent (key d) : Does P (.sent key d) (.accept [.datagram d.data d.addr] [])
  | registered (v : U64) (x d c) (hc : newConnectionFor P d = .ok c) (hx : x.connection = c.setScid (.ofU64 v) 8) :
      Does P (.registered (.ofU64 v) x) (.accept [.datagram d.data d.addr] [v])
  | removed (key) : Does P (.removed key) (.drop key)

/-- Events without effect on the table. -/
def Silent : Label → Prop
  | .sent _ _ => False
  | .registered _ _ => False
  | .removed _ => False
  | _ => True

/-- The calls are those of the events of the run, in the same order. -/
inductive InOrder (P : Prims) : List (Nat × Label) → List SockOp → Prop where
  | nil : InOrder P [] []
  | does {tr ops t l op} : InOrder P tr ops → Does P l op → InOrder P (tr ++ [(t, l)]) (ops ++ [op])
  | silent {tr ops t l} : InOrder P tr ops → Silent l → InOrder P (tr ++ [(t, l)]) ops

theorem InOrder.calls {tr ops} (h : InOrder P tr ops) : ∀ op ∈ ops, op.call = true := by
  induction h with
  | nil => nofun
  | does _ hd ih =>
    intro op hm
    rcases List.mem_append.mp hm with hm | hm
    · exact ih op hm
    · rw [List.mem_singleton.mp hm]
      cases hd <;> rfl
  | silent _ _ ih => exact ih

/-- The id was free when it was looked up, and is unless it was registered since. -/
def WasFree (k : Sock) (tr : List (Nat × Label)) (key : U160) : Prop := k.streams key = none ∨ ∃ t x, (t, Label.registered key x) ∈ tr

/-- The connection was made for a datagram for an id that was free. -/
def Origin (P : Prims) (k : Sock) (tr : List (Nat × Label)) (c : Connection) : Prop :=
  ∃ d hd, (nextHeaderFromStream (makeResultStream d.data)).1 = .ok hd ∧ hd.getPacketType = .ok .initial ∧ newConnectionFor P d = .ok c
    ∧ d.data.take RECV_BUFFER_LEN = d.data ∧ WasFree k tr hd.getDestinationId

/-- What is known at each program counter. -/
def PcSer (P : Prims) (k : Sock) (tr : List (Nat × Label)) : Pc → Prop
  | .aCheckLock d dcid => d.data.take RECV_BUFFER_LEN = d.data ∧
      ∃ hd, (nextHeaderFromStream (makeResultStream d.data)).1 = .ok hd ∧ hd.getPacketType = .ok .initial ∧ hd.getDestinationId = dcid
  | .aCheck d dcid => d.data.take RECV_BUFFER_LEN = d.data ∧
      ∃ hd, (nextHeaderFromStream (makeResultStream d.data)).1 = .ok hd ∧ hd.getPacketType = .ok .initial ∧ hd.getDestinationId = dcid
  | .aNew d => d.data.take RECV_BUFFER_LEN = d.data ∧
      ∃ hd, (nextHeaderFromStream (makeResultStream d.data)).1 = .ok hd ∧ hd.getPacketType = .ok .initial ∧ WasFree k tr hd.getDestinationId
  | .aRandom s => ∃ c, s = .fromConnection c ∧ Origin P k tr c
  | .aRegLock s _ => ∃ c, s = .fromConnection c ∧ Origin P k tr c
  | .aContains s _ => ∃ c, s = .fromConnection c ∧ Origin P k tr c
  | .aScidLock s _ => ∃ c, s = .fromConnection c ∧ Origin P k tr c
  | .aSetScid s _ => ∃ c, s = .fromConnection c ∧ Origin P k tr c
  | .aInsert s key => ∃ c, s = ⟨[], c.setScid key 8⟩ ∧ Origin P k tr c
  | p => ∀ d ∈ pending p, d.data.take RECV_BUFFER_LEN = d.data

theorem wasFree_step {k k' : Sock} {p : Pc} {l : Label} {tr t} (ht : TableChange P p k k' l) {key} (h : WasFree k tr key) :
    WasFree k' (tr ++ [(t, l)]) key := by
  rcases h with h | ⟨t', x, h⟩
  · cases ht with
    | registered key' s hp e =>
      by_cases hk : key = key'
      · exact .inr ⟨t, s, by rw [hk]; simp⟩
      · exact .inl (by rw [e, tableInsert_other hk, h])
    | removed key' hp e =>
      left
      rw [e, tableRemove]
      split
      · rfl
      · exact h
    | sent key' d x hp hx e =>
      left
      rw [e, tableInsert_other (fun hk => by rw [← hk, h] at hx; cases hx), h]
    | none l e => exact .inl (by rw [e, h])
  · exact .inr ⟨t', x, List.mem_append_left _ h⟩

theorem origin_mono {k k' : Sock} {tr tr' c} (hf : ∀ key, WasFree k tr key → WasFree k' tr' key) (h : Origin P k tr c) : Origin P k' tr' c := by
  obtain ⟨d, hd, h1, h2, h3, h4, h5⟩ := h
  exact ⟨d, hd, h1, h2, h3, h4, hf _ h5⟩

theorem pcSer_mono {k k' : Sock} {tr tr'} (hf : ∀ key, WasFree k tr key → WasFree k' tr' key) {p : Pc} (h : PcSer P k tr p) : PcSer P k' tr' p := by
  have ho : ∀ c, Origin P k tr c → Origin P k' tr' c := fun c => origin_mono hf
  cases p with
  | aNew d =>
    obtain ⟨h1, hd, h2, h3, h4⟩ := h
    exact ⟨h1, hd, h2, h3, hf _ h4⟩
  | aRandom s => obtain ⟨c, h1, h2⟩ := h; exact ⟨c, h1, ho c h2⟩
  | aRegLock s key => obtain ⟨c, h1, h2⟩ := h; exact ⟨c, h1, ho c h2⟩
  | aContains s key => obtain ⟨c, h1, h2⟩ := h; exact ⟨c, h1, ho c h2⟩
  | aScidLock s key => obtain ⟨c, h1, h2⟩ := h; exact ⟨c, h1, ho c h2⟩
  | aSetScid s key => obtain ⟨c, h1, h2⟩ := h; exact ⟨c, h1, ho c h2⟩
  | aInsert s key => obtain ⟨c, h1, h2⟩ := h; exact ⟨c, h1, ho c h2⟩
  | _ => exact h

theorem act_pcSer {p k l p' k'} {tr} {t : Nat} (h : Act P bp p k l p' k') (hp : PcSer P k tr p) : PcSer P k' (tr ++ [(t, l)]) p' := by
  have hm := pcSer_mono (P := P) (fun key hf => wasFree_step (t := t) (act_table h) hf) hp
  have ho : ∀ c, Origin P k tr c → Origin P k' (tr ++ [(t, l)]) c := fun c => origin_mono (fun key hf => wasFree_step (t := t) (act_table h) hf)
  cases h with
  | recv k raw addr =>
    intro d hd
    rw [List.mem_singleton.mp hd]
    exact List.take_take .. |>.trans (by rw [Nat.min_self])
  | parseInitial k d h he ht => exact ⟨hp d (List.mem_singleton.mpr rfl), h, he, ht, rfl⟩
  | checkNew k d dcid h =>
    obtain ⟨h1, hd, h2, h3, rfl⟩ := hp
    exact ⟨h1, hd, h2, h3, .inl h⟩
  | checkKnown k d dcid x h =>
    intro d' hd'
    rw [List.mem_singleton.mp hd']
    exact hp.1
  | new k d c hc =>
    obtain ⟨h1, hd, h2, h3, h4⟩ := hm
    exact ⟨c, rfl, d, hd, h2, h3, hc, h1, h4⟩
  | random => exact hm
  | fresh => exact hm
  | taken => exact hm
  | setScid k s key =>
    obtain ⟨c, rfl, h⟩ := hm
    exact ⟨c, rfl, h⟩
  | flag => exact hm
  | print => exact hm
  | noPrint => exact hm
  | parseOther => exact hm
  | parseError => exact hm
  | route => exact hm
  | routeError => exact hm
  | sendMissing => exact hm
  | _ => exact nofun

theorem wants_pcSer {k : Sock} {tr} {p p' : Pc} {l m} (h : p.wants = some (l, m, p')) (hp : PcSer P k tr p) : PcSer P k tr p' := by
  cases p <;> simp only [Pc.wants, Option.some.injEq, Prod.mk.injEq, reduceCtorEq] at h <;> obtain ⟨-, -, rfl⟩ := h <;>
    first | exact hp | exact nofun

theorem pcSer_run {tr s} (hr : Sys.Run P bp Sys.init tr s) (t : Nat) : PcSer P s.sock tr (s.pc t) := by
  induction hr generalizing t with
  | nil => exact nofun
  | @snoc tr1 s1 t1 l s2 hr hs ih =>
    cases hs with
    | act _ p k ha =>
      show PcSer P k _ (if t = t1 then p else s1.pc t)
      split
      · exact act_pcSer ha (ih t1)
      · exact pcSer_mono (fun key hf => wasFree_step (act_table ha) hf) (ih t)
    | acquire l m p hw hf hp =>
      have hm : ∀ {p}, PcSer P s1.sock tr1 p → PcSer P s1.sock (tr1 ++ [(t1, .tau)]) p :=
        pcSer_mono (fun key hf => hf.imp id (fun ⟨t, x, h⟩ => ⟨t, x, List.mem_append_left _ h⟩))
      show PcSer P s1.sock _ (if t = t1 then p else s1.pc t)
      split
      · exact hm (wants_pcSer hw (ih t1))
      · exact hm (ih t)
    | poisoned l m p hw hf hp =>
      have hm : ∀ {p}, PcSer P s1.sock tr1 p → PcSer P s1.sock (tr1 ++ [(t1, .panicked)]) p :=
        pcSer_mono (fun key hf => hf.imp id (fun ⟨t, x, h⟩ => ⟨t, x, List.mem_append_left _ h⟩))
      show PcSer P s1.sock _ (if t = t1 then .dead else s1.pc t)
      split
      · exact nofun
      · exact hm (ih t)
    | panic h =>
      have hm : ∀ {p}, PcSer P s1.sock tr1 p → PcSer P s1.sock (tr1 ++ [(t1, .panicked)]) p :=
        pcSer_mono (fun key hf => hf.imp id (fun ⟨t, x, h⟩ => ⟨t, x, List.mem_append_left _ h⟩))
      show PcSer P s1.sock _ (if t = t1 then .dead else s1.pc t)
      split
      · exact nofun
      · exact hm (ih t)

/-- `accept` with one datagram, which is new. -/
theorem accept_opens {k : Sock} (hl : k.logTraffic = false) {d : Datagram} {hd c} {v : U64}
    (hh : (nextHeaderFromStream (makeResultStream d.data)).1 = .ok hd) (ht : hd.getPacketType = .ok .initial)
    (hc : newConnectionFor P d = .ok c) (hd' : d.data.take RECV_BUFFER_LEN = d.data) (hf : k.streams hd.getDestinationId = none)
    (hv : k.streams (.ofU64 v) = none) :
    (k.accept P [.datagram d.data d.addr] [v]).2.1 = { k with streams := tableInsert k.streams (.ofU64 v) ⟨[], c.setScid (.ofU64 v) 8⟩ } := by
  have hi : k.isNewInitial d = .ok true := by
    unfold isNewInitial
    simp only [hh, ht, Out.ok_bind, hf]
    rfl
  have hr : k.recvNewInitialDatagram [.datagram d.data d.addr] = (.ok d, k, []) := by
    unfold recvNewInitialDatagram recvDatagram
    simp only [hl, Bool.false_eq_true, if_false, hd', hi]
  unfold accept
  simp only [hr, hc, register_one hv, tableInsert_same]
  rfl

/-- `accept` with one datagram, which is for a connection. -/
theorem accept_delivers {k : Sock} (hl : k.logTraffic = false) {d : Datagram} {hd x}
    (hh : (nextHeaderFromStream (makeResultStream d.data)).1 = .ok hd) (hd' : d.data.take RECV_BUFFER_LEN = d.data)
    (hx : k.streams hd.getDestinationId = some x) :
    (k.accept P [.datagram d.data d.addr] []).2.1 =
      { k with streams := tableInsert k.streams hd.getDestinationId { x with queue := x.queue ++ [d] } } := by
  obtain ⟨kind, id, ha, -, hv, -⟩ := header_addressed (s' := (nextHeaderFromStream (makeResultStream d.data)).2) (Prod.ext hh rfl)
  have hi := isNew_addressed (k := k) ha hv
  rw [hx] at hi
  have ho := route_known (k := k) ha hv hx
  unfold accept recvNewInitialDatagram recvDatagram
  simp only [hl, Bool.false_eq_true, if_false, hd', hi, Option.isNone_some, Bool.and_false, ho]
  rfl

/-- C88 for runs in which no connection is registered under the id for which another was opened: the calls that correspond to the events
of the run, made one after the other in the order of the events, leave the same connections with the same queues. Missing: runs with
such a collision (`C88_crossing`), and that no call fails which could not fail in that order (`C88_drop_race`). -/
theorem C88_serial_partial {tr s} (hr : Sys.Run P bp Sys.init tr s) (hn : NoCrossing tr) :
    ∃ ops, InOrder P tr ops ∧ (∀ op ∈ ops, op.call = true) ∧ (Sock.run P bp Sock.bind ops).2.streams = s.sock.streams := by
  suffices h : ∃ ops, InOrder P tr ops ∧ (Sock.run P bp Sock.bind ops).2.streams = s.sock.streams ∧ (Sock.run P bp Sock.bind ops).2.logTraffic = false by
    obtain ⟨ops, h1, h2, -⟩ := h
    exact ⟨ops, h1, h1.calls, h2⟩
  induction hr with
  | nil => exact ⟨[], .nil, rfl, rfl⟩
  | @snoc tr1 s1 t l s2 hr hs ih =>
    obtain ⟨ops, i1, i2, i3⟩ := ih (fun t key x t' key' x' h h' => hn t key x t' key' x' (List.mem_append_left _ h) (List.mem_append_left _ h'))
    have hsil : s2.sock.streams = s1.sock.streams → Silent l →
        ∃ ops, InOrder P (tr1 ++ [(t, l)]) ops ∧ (Sock.run P bp Sock.bind ops).2.streams = s2.sock.streams ∧ (Sock.run P bp Sock.bind ops).2.logTraffic = false :=
      fun h1 h2 => ⟨ops, .silent i1 h2, i2.trans h1.symm, i3⟩
    cases hs with
    | acquire l m p hw hf hp => exact hsil rfl trivial
    | poisoned l m p hw hf hp => exact hsil rfl trivial
    | panic h => exact hsil rfl trivial
    | act _ p k ha =>
      have hser := pcSer_run hr t
      have hok := (inv_reachable hr).pcOk t
      have hrun : ∀ op, (Sock.run P bp Sock.bind (ops ++ [op])).2 = ((Sock.run P bp Sock.bind ops).2.step P bp op).2 :=
        fun op => sockRun_append P bp ops [op] Sock.bind
      generalize (Sock.run P bp Sock.bind ops).2 = k0 at i2 i3 hrun
      cases act_table ha with
      | registered key x hp e =>
        rw [hp] at hser hok
        obtain ⟨c, rfl, d, hd, h1, h2, h3, h4, h5⟩ := hser
        obtain ⟨-, ⟨⟨v, rfl⟩, -⟩, hfree⟩ := hok
        have hdc := newConnectionFor_dcid h3 h1
        have hf : s1.sock.streams hd.getDestinationId = none := by
          rcases h5 with h5 | ⟨t', x', h5⟩
          · exact h5
          · rw [hn t _ _ t' _ x' (List.mem_append_right _ (List.mem_singleton.mpr rfl)) (List.mem_append_left _ h5) hdc.symm]
            exact hfree
        have hacc := accept_opens (P := P) (k := k0) i3 h1 h2 h3 h4 (by rw [i2]; exact hf) (v := v) (by rw [i2]; exact hfree)
        refine ⟨_, .does i1 (.registered v _ d c h3 rfl), ?_, ?_⟩
        · rw [hrun]
          show (k0.accept P _ _).2.1.streams = k.streams
          rw [hacc, e, i2]
        · rw [hrun]
          show (k0.accept P _ _).2.1.logTraffic = false
          rw [hacc, i3]
      | removed key hp e =>
        refine ⟨_, .does i1 (.removed key), ?_, ?_⟩
        · rw [hrun]
          show tableRemove k0.streams key = k.streams
          rw [e, i2]
        · rw [hrun]
          exact i3
      | sent key d x hp hx e =>
        rw [hp] at hser hok
        obtain ⟨hd, h1, rfl⟩ := hok
        have hacc := accept_delivers (P := P) (k := k0) i3 h1 (hser d (List.mem_singleton.mpr rfl)) (by rw [i2]; exact hx)
        refine ⟨_, .does i1 (.sent _ d), ?_, ?_⟩
        · rw [hrun]
          show (k0.accept P [.datagram d.data d.addr] []).2.1.streams = k.streams
          rw [hacc, e, i2]
        · rw [hrun]
          show (k0.accept P [.datagram d.data d.addr] []).2.1.logTraffic = false
          rw [hacc, i3]
      | none _ e n1 n2 n3 =>
        refine hsil e ?_
        cases l <;> first | trivial | exact absurd rfl (n1 _ _) | exact absurd rfl (n2 _) | exact absurd rfl (n3 _ _)

theorem Sys.Run.goes {s0 tr pcs} {t : Nat} {p k l p' k'} (h : Sys.Run P bp s0 tr (sysAt pcs t k p)) (ha : Act P bp p k l p' k') :
    Sys.Run P bp s0 (tr ++ [(t, l)]) (sysAt pcs t k' p') := by
  have hs := Sys.Step.act (P := P) (bp := bp) (sysAt pcs t k p) t l p' k' (by rw [sysAt_pc]; exact ha)
  rw [sysAt_goto] at hs
  exact h.snoc hs

theorem Sys.Run.locks {s0 tr pcs} {t : Nat} {p k l m p'} (h : Sys.Run P bp s0 tr (sysAt pcs t k p)) (hw : p.wants = some (l, m, p'))
    (hq : ∀ t, (pcs t).held = []) : Sys.Run P bp s0 (tr ++ [(t, .tau)]) (sysAt pcs t k p') := by
  have hs := Sys.Step.acquire (P := P) (bp := bp) (sysAt pcs t k p) t l m p' (by rw [sysAt_pc]; exact hw)
    (by
      intro t' m' hh
      simp only [sysAt] at hh
      split at hh
      · exact absurd hh (rank_ne hw m')
      · rw [hq] at hh; cases hh) rfl
  rw [sysAt_goto] at hs
  exact h.snoc hs

/-- The hypotheses of `C88_serial_partial` are met: a connection opened for 5 is registered as 7. -/
example : ∃ tr s x, Sys.Run toy .debug Sys.init tr s ∧ NoCrossing tr ∧ s.sock.streams (.ofU64 7) = some x ∧ x.connection.dcid.1 = .ofU64 5 := by
  have ha := exCross_addressed 5
  have hk : cidVal (.ofU64 5) = beNat [0, 0, 0, 0, 0, 0, 0, 5] := by decide
  obtain ⟨c, hc, hcd, -⟩ := newConnection_ok toy_laws (d := ⟨(exCross 5).take RECV_BUFFER_LEN, 1⟩) ha (hk.trans (if_neg (by decide)).symm) (by decide)
  obtain ⟨hd, s0, hh, ht, hv, -⟩ := addressed_header ha
  have hh : (nextHeaderFromStream (makeResultStream ((exCross 5).take RECV_BUFFER_LEN))).1 = .ok hd := by rw [hh]
  have hq : ∀ t : Nat, ((fun _ => Pc.idle) t).held = [] := fun _ => rfl
  have e0 : sysAt (fun _ => .idle) 0 Sock.bind .idle = Sys.init := by
    simp only [sysAt, Sys.init, Sys.mk.injEq, true_and]
    funext t
    split <;> rfl
  have h0 : Sys.Run toy .debug Sys.init [] (sysAt (fun _ => .idle) 0 Sock.bind .idle) := by rw [e0]; exact .nil _
  have h1 := (((((h0.goes (.callAccept _)).locks rfl hq).goes (.recv _ (exCross 5) 1)).locks rfl hq).goes (.flag _ _)).goes (.noPrint _ _)
  have h2 := ((h1.goes (.parseInitial _ _ hd hh ht)).locks rfl hq).goes (.checkNew _ _ _ rfl)
  have h3 := (((h2.goes (.new _ _ c hc)).goes (.random _ _ 7)).locks rfl hq).goes (.fresh _ _ _ rfl)
  have h4 := ((h3.locks rfl hq).goes (.setScid _ _ _)).goes (.insert _ _ _)
  refine ⟨_, _, _, h4, ?_, tableInsert_same Sock.bind.streams (.ofU64 7) _, ?_⟩
  · intro t key x t' key' x' h h' _
    simp only [List.mem_append, List.mem_cons, List.not_mem_nil, or_false, false_or, Prod.mk.injEq, reduceCtorEq, and_false,
      Label.registered.injEq] at h h'
    exact h'.2.1.trans h.2.1.symm
  · show c.dcid.1 = _
    rw [hcd]

end QuicSea
