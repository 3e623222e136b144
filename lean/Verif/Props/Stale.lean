import Verif.Props.Serial
/-
C121: when the datagrams in a connection's queue were received.
-/
namespace QuicSea
open Spec Sock

variable {P : Prims} {bp : Profile}

/-- Whether there is a connection known by this id, after one more event. -/
def presence (key : U160) (before : Bool) (e : Nat × Label) : Bool :=
  match e.2 with
  | .registered k _ => if k = key then true else before
  | .removed k => if k = key then false else before
  | _ => before

/-- Is there a connection known by this id after these events on a new socket? -/
def presentAfter (key : U160) (tr : List (Nat × Label)) : Bool := tr.foldl (presence key) false

/-- The datagram `d` that a thread delivers after the events `a` is the one it received after the events `a1`: in `a2` it neither received nor
delivered another. -/
def TakenAt (t : Nat) (d : Datagram) (a a1 a2 : List (Nat × Label)) : Prop :=
  a = a1 ++ (t, .received d) :: a2 ∧ receivedBy t a2 = [] ∧ handledBy t a2 = []

/-- C121, full statement: a datagram put into the queue of a connection was received while that connection was there: it was registered before
the datagram was received and has not been dropped since. -/
def C121For (P : Prims) : Prop := ∀ (bp : Profile) (a b : List (Nat × Label)) (s : Sys) (t : Nat) (key : U160) (d : Datagram),
  Sys.Run P bp Sys.init (a ++ (t, .sent key d) :: b) s →
  ∃ a1 a2, TakenAt t d a a1 a2 ∧ presentAfter key a1 = true ∧ ¬ Dropped key a2
/-- The claim, for all algorithms that obey the laws. -/
def C121Statement : Prop := ∀ P, PrimLaws P → C121For P

/-! ### traces -/

/-- A run, cut at an event. -/
theorem Sys.Run.cut {s0 s : Sys} {a b : List (Nat × Label)} {t l} (h : Sys.Run P bp s0 (a ++ (t, l) :: b) s) :
    ∃ s1 s2, Sys.Run P bp s0 a s1 ∧ Sys.Step P bp s1 t l s2 ∧ Sys.Run P bp s2 b s := by
  generalize htr : a ++ (t, l) :: b = tr at h
  induction h generalizing b with
  | nil => simp at htr
  | @snoc tr2 s2 t2 l2 s3 hp hs ih =>
    rcases List.eq_nil_or_concat b with rfl | ⟨b', e, rfl⟩
    · obtain ⟨h1, h2⟩ := List.append_inj' htr rfl
      cases h2
      subst h1
      exact ⟨_, _, hp, hs, .nil _⟩
    · rw [List.concat_eq_append, ← List.cons_append, ← List.append_assoc] at htr
      obtain ⟨h1, h2⟩ := List.append_inj' htr rfl
      cases h2
      obtain ⟨s1, s2, g1, g2, g3⟩ := ih h1
      exact ⟨s1, s2, g1, g2, List.concat_eq_append ▸ g3.snoc hs⟩

/-- The events say what is in the table. -/
theorem present_iff {tr s} (hr : Sys.Run P bp Sys.init tr s) (key : U160) : (s.sock.streams key).isSome = presentAfter key tr := by
  induction hr with
  | nil => rfl
  | @snoc tr2 s2 t l s3 hp hs ih =>
    rw [presentAfter, List.foldl_append, ← presentAfter, ← ih]
    show _ = presence key _ (t, l)
    cases hs with
    | act _ p k ha =>
      show (k.streams key).isSome = _
      cases act_table ha with
      | registered k' x _ h =>
        rw [h]
        by_cases hk : k' = key
        · subst hk; rw [tableInsert_same]; simp [presence]
        · rw [tableInsert_other (Ne.symm hk)]; simp [presence, hk]
      | removed k' _ h =>
        rw [h]
        by_cases hk : k' = key
        · subst hk; rw [tableRemove_same]; simp [presence]
        · rw [tableRemove_other (Ne.symm hk)]; simp [presence, hk]
      | sent k' d x _ hx h =>
        rw [h]
        by_cases hk : k' = key
        · subst hk; rw [tableInsert_same, hx]; simp [presence]
        · rw [tableInsert_other (Ne.symm hk)]; simp [presence]
      | none _ h h1 h2 h3 =>
        rw [h]
        cases l <;> simp_all [presence]
    | acquire => rfl
    | poisoned => rfl
    | panic => rfl

/-- The datagram a thread is busy with is the last one it received. -/
theorem pending_taken {tr s} (hr : Sys.Run P bp Sys.init tr s) (t : Nat) (d : Datagram) (hd : pending (s.pc t) = [d]) :
    ∃ a1 a2, TakenAt t d tr a1 a2 ∧ ∀ l, (t, l) ∈ a2 → l = .tau := by
  induction hr with
  | nil => cases hd
  | @snoc tr2 s2 t2 l s3 hp hs ih =>
    have more : pending (s2.pc t) = [d] → receivedBy t [(t2, l)] = [] → handledBy t [(t2, l)] = [] → (t2 = t → l = .tau) →
        ∃ a1 a2, TakenAt t d (tr2 ++ [(t2, l)]) a1 a2 ∧ ∀ l, (t, l) ∈ a2 → l = .tau := by
      intro g g1 g2 g3
      obtain ⟨a1, a2, ⟨rfl, h1, h2⟩, h3⟩ := ih g
      refine ⟨a1, a2 ++ [(t2, l)], ⟨by simp, by rw [receivedBy_append, h1, g1]; rfl, by rw [handledBy_append, h2, g2]; rfl⟩, ?_⟩
      intro l' hm
      rcases List.mem_append.mp hm with hm | hm
      · exact h3 l' hm
      · cases List.mem_singleton.mp hm
        exact g3 rfl
    by_cases ht : t2 = t
    · subst ht
      cases hs with
      | act _ p k ha =>
        have hpc : ({ s2.goto t2 p with sock := k } : Sys).pc t2 = p := by simp [Sys.goto]
        rw [hpc] at hd
        have g := (act_pending ha t2).1
        have hlen := pending_length (s2.pc t2)
        rw [hd] at g
        cases l with
        | received d' =>
          simp only [receivedBy, handledBy, if_true, List.nil_append] at g
          cases hq : pending (s2.pc t2) with
          | nil =>
            rw [hq] at g
            cases g
            exact ⟨tr2, [], ⟨rfl, rfl, rfl⟩, fun _ h => nomatch h⟩
          | cons y ys => rw [hq] at g; simp at g
        | sent _ d' =>
          simp only [receivedBy, handledBy, if_true, List.append_nil] at g
          rw [g] at hlen; simp at hlen
        | opened d' =>
          simp only [receivedBy, handledBy, if_true, List.append_nil] at g
          rw [g] at hlen; simp at hlen
        | tau => exact more (by simpa [receivedBy, handledBy] using g) rfl rfl (fun _ => rfl)
        | registered =>
          cases act_table ha with
          | registered _ _ hp => rw [hp] at g; cases g
          | none _ _ h => exact absurd rfl (h _ _)
        | removed =>
          cases act_table ha with
          | removed _ hp => rw [hp] at g; cases g
          | none _ _ _ h => exact absurd rfl (h _)
        | panicked => generalize s2.pc t2 = q at ha; cases ha
      | acquire _ m p hw =>
        have hpc : (s2.goto t2 p).pc t2 = p := by simp [Sys.goto]
        rw [hpc, (wants_pending hw).1] at hd
        exact more hd rfl rfl (fun _ => rfl)
      | poisoned => simp [Sys.kill, Sys.goto, pending] at hd
      | panic => simp [Sys.kill, Sys.goto, pending] at hd
    · obtain ⟨o1, o2⟩ := other_nil ht l
      have hpc : s3.pc t = s2.pc t := by
        cases hs <;> simp [Sys.kill, Sys.goto, Ne.symm ht]
      exact more (by rw [← hpc]; exact hd) o1 o2 (fun h => absurd h ht)

/-- The moment of receipt is determined by the trace. -/
theorem TakenAt.unique {t d a a1 a2 b1 b2} (h : TakenAt t d a a1 a2) (h' : TakenAt t d a b1 b2) : a1 = b1 ∧ a2 = b2 := by
  obtain ⟨rfl, h1, -⟩ := h
  obtain ⟨e, g1, -⟩ := h'
  have key : ∀ {c1 c2 d1 d2 : List (Nat × Label)}, c1 ++ (t, .received d) :: c2 = d1 ++ (t, .received d) :: d2 → receivedBy t c2 = [] → receivedBy t d2 = [] →
      c1.length ≤ d1.length := by
    intro c1 c2 d1 d2 e hc hd
    refine Nat.le_of_not_lt fun hlt => ?_
    rcases List.append_eq_append_iff.mp e with ⟨x, hx, -⟩ | ⟨x, hx, e2⟩
    · rw [hx, List.length_append] at hlt; omega
    · cases x with
      | nil => rw [hx] at hlt; simp at hlt
      | cons y ys =>
        rw [List.cons_append] at e2
        cases e2
        rw [receivedBy_append] at hd
        simp [receivedBy] at hd
  have := Nat.le_antisymm (key e h1 g1) (key e.symm g1 h1)
  obtain ⟨r1, r2⟩ := List.append_inj e this
  exact ⟨r1, (List.cons.inj r2).2⟩

/-- C121: every datagram put into a queue was received by the thread that put it there, which did nothing else in between. -/
theorem C121_received {a b : List (Nat × Label)} {s t key d} (hr : Sys.Run P bp Sys.init (a ++ (t, .sent key d) :: b) s) :
    ∃ a1 a2, TakenAt t d a a1 a2 ∧ ∀ l, (t, l) ∈ a2 → l = .tau := by
  obtain ⟨s1, s2, h1, hs, -⟩ := hr.cut
  refine pending_taken h1 t d ?_
  cases hs with
  | act _ p k ha =>
    cases act_table ha with
    | sent _ _ x hp => rw [hp]; rfl
    | none _ _ _ _ h3 => exact absurd rfl (h3 _ _)

/-- While nobody registers the id it can only disappear. -/
theorem present_back (key : U160) (a2 : List (Nat × Label)) (hn : ∀ t x, (t, Label.registered key x) ∉ a2) (b : Bool)
    (h : a2.foldl (presence key) b = true) : b = true ∧ ¬ Dropped key a2 := by
  induction a2 generalizing b with
  | nil => exact ⟨h, by rintro ⟨_, h⟩; cases h⟩
  | cons e a2 ih =>
    obtain ⟨h1, h2⟩ := ih (fun t x hm => hn t x (List.mem_cons_of_mem _ hm)) _ h
    obtain ⟨t, l⟩ := e
    have hl : l ≠ .removed key := by
      rintro rfl
      simp [presence] at h1
    have hl' : ∀ x, l ≠ .registered key x := by
      rintro x rfl
      exact hn t x (List.mem_cons_self ..)
    refine ⟨?_, ?_⟩
    · cases l with
      | registered k x =>
        have hk : k ≠ key := by rintro rfl; exact hl' x rfl
        simpa [presence, hk] using h1
      | removed k =>
        have hk : k ≠ key := by rintro rfl; exact hl rfl
        simpa [presence, hk] using h1
      | _ => exact h1
    · rintro ⟨t', hm⟩
      rcases List.mem_cons.mp hm with hm | hm
      · cases hm; exact hl rfl
      · exact h2 ⟨t', hm⟩

/-- C121, exactly: a delivered datagram was received while the connection was there if and only if nobody registered the id between the receipt and the
delivery. -/
theorem C121_exact {a b : List (Nat × Label)} {s t key d} (hr : Sys.Run P bp Sys.init (a ++ (t, .sent key d) :: b) s)
    {a1 a2} (ht : TakenAt t d a a1 a2) :
    (presentAfter key a1 = true ∧ ¬ Dropped key a2) ↔ ∀ t' x, (t', Label.registered key x) ∉ a2 := by
  obtain ⟨s1, s2, h1, hs, -⟩ := hr.cut
  obtain ⟨rfl, g1, g2⟩ := ht
  have hp : presentAfter key (a1 ++ (t, .received d) :: a2) = true := by
    rw [← present_iff h1]
    cases hs with
    | act _ p k ha =>
      cases act_table ha with
      | sent _ _ x hp hx => rw [hx]; rfl
      | none _ _ _ _ h3 => exact absurd rfl (h3 _ _)
  rw [presentAfter, List.foldl_append, ← presentAfter] at hp
  constructor
  · rintro ⟨h, hd⟩ t' x hm
    obtain ⟨c1, c2, rfl⟩ := List.append_of_mem hm
    have h1' : Sys.Run P bp Sys.init ((a1 ++ (t, .received d) :: c1) ++ (t', .registered key x) :: c2) s1 := by simpa using h1
    obtain ⟨q1, q2, r1, rs, -⟩ := h1'.cut
    obtain ⟨p1, p2, r0, ps, pr⟩ := r1.cut
    have hsome : (p1.sock.streams key).isSome := by rw [present_iff r0]; exact h
    obtain ⟨y, hy⟩ := Option.isSome_iff_exists.mp hsome
    have hy2 : p2.sock.streams key = some y := by
      cases ps with
      | act _ p k ha =>
        cases act_table ha with
        | none _ h => exact (congrFun h key).trans hy
    obtain ⟨more, hm⟩ := C45_survives (r0.snoc ps) pr key y hy2 (fun ⟨t, h⟩ => hd ⟨t, List.mem_append_left _ h⟩)
    cases rs with
    | act _ p k ha =>
      cases act_table ha with
      | registered _ _ hpc =>
        have := (inv_reachable r1).pcOk t'
        rw [hpc] at this
        cases hm.symm.trans this.2.2
      | none _ _ h => exact absurd rfl (h _ _)
  · intro hn
    exact present_back key a2 hn _ hp

/-- C121 holds for a datagram if, from its receipt to its delivery, no other thread registers the id: so whenever calls do not overlap.
Missing for the full statement: calls that overlap, for which it is false (`C121_early`). -/
theorem C121_partial {a b : List (Nat × Label)} {s t key d} (hr : Sys.Run P bp Sys.init (a ++ (t, .sent key d) :: b) s)
    (ho : ∀ a1 a2, TakenAt t d a a1 a2 → ∀ e ∈ a2, e.1 = t ∨ ∀ x, e.2 ≠ .registered key x) :
    ∃ a1 a2, TakenAt t d a a1 a2 ∧ presentAfter key a1 = true ∧ ¬ Dropped key a2 := by
  obtain ⟨a1, a2, ht, hq⟩ := C121_received hr
  refine ⟨a1, a2, ht, (C121_exact hr ht).mpr ?_⟩
  intro t' x hm
  rcases ho a1 a2 ht _ hm with h | h
  · cases hq _ (by rw [← show t' = t from h]; exact hm)
  · exact h x rfl

/-! ### datagrams received before the connection was there -/

/-- A thread opens a connection and registers it as `v`. -/
theorem run_open (hP : PrimLaws P) {tr pcs} {t : Nat} {k : Sock} (h : Sys.Run P bp Sys.init tr (sysAt pcs t k .idle)) (hq : ∀ t, (pcs t).held = [])
    (hl : k.logTraffic = false) {v : U64} {raw : Bytes} {addr : Nat} {id : Bytes} {key : U160} (ha : Addressed (raw.take RECV_BUFFER_LEN) .initial id)
    (hk : cidVal key = beNat id) (hf : k.streams key = none) (hv : k.streams (.ofU64 v) = none) :
    ∃ tr' x, (∀ e ∈ tr', e.1 = t ∧ e.2 ≠ .removed (.ofU64 v)) ∧ x.queue = [] ∧ x.connection.dcid = (key, id.length) ∧ presentAfter (.ofU64 v) (tr ++ tr') = true
      ∧ Sys.Run P bp Sys.init (tr ++ tr') (sysAt pcs t { k with streams := tableInsert k.streams (.ofU64 v) x } (.aGetLock (.ofU64 v))) := by
  obtain ⟨c, hc, hcd, -⟩ := newConnection_ok hP (d := ⟨raw.take RECV_BUFFER_LEN, addr⟩) ha (hk.trans (if_neg (by decide)).symm) (addressed_short ha (by decide))
  obtain ⟨hd, s0, hh, ht, hdv, -⟩ := addressed_header ha
  have hdest : hd.getDestinationId = key := cidVal_inj (hdv.trans ((if_neg (by decide)).trans hk.symm))
  have hh : (nextHeaderFromStream (makeResultStream (raw.take RECV_BUFFER_LEN))).1 = .ok hd := by rw [hh]
  have h1 := ((((h.goes (.callAccept _)).locks rfl hq).goes (.recv _ raw addr)).locks rfl hq).goes (.flag _ _)
  rw [hl] at h1
  have h2 := (((h1.goes (.noPrint _ _)).goes (.parseInitial _ _ hd hh ht)).locks rfl hq).goes (.checkNew _ _ _ (by rw [hdest]; exact hf))
  have h3 := (((h2.goes (.new _ _ c hc)).goes (.random _ _ v)).locks rfl hq).goes (.fresh _ _ _ hv)
  have h4 := (((h3.locks rfl hq).goes (.setScid _ _ _)).goes (.insert _ _ _)).goes (.unlock _ _)
  simp only [List.append_assoc] at h4
  refine ⟨_, _, ?_, rfl, hcd, ?_, h4⟩
  · intro e he
    simp only [List.mem_append, List.mem_cons, List.not_mem_nil, or_false] at he
    rcases he with rfl | rfl | rfl | rfl | rfl | rfl | rfl | rfl | rfl | rfl | rfl | rfl | rfl | rfl | rfl | rfl | rfl <;> simp
  · rw [← present_iff h4]
    show Option.isSome (tableInsert k.streams (.ofU64 v) _ _) = true
    rw [tableInsert_same]
    rfl

/-- A thread receives a datagram for `v` that is no Initial packet, and is about to look for the connection. -/
theorem run_take {tr pcs} {t : Nat} {k : Sock} (h : Sys.Run P bp Sys.init tr (sysAt pcs t k .idle)) (hq : ∀ t, (pcs t).held = [])
    (hl : k.logTraffic = false) {v : U64} {raw : Bytes} {addr : Nat} {kind} {id : Bytes} (ha : Addressed (raw.take RECV_BUFFER_LEN) kind id)
    (hki : kind ≠ .initial) (hkv : kind ≠ .versionNegotiation) (hid : beNat id = v.toNat) :
    Sys.Run P bp Sys.init ((tr ++ [(t, .tau), (t, .tau)]) ++ (t, .received ⟨raw.take RECV_BUFFER_LEN, addr⟩) :: [(t, .tau), (t, .tau), (t, .tau), (t, .tau), (t, .tau)])
      (sysAt pcs t k (.aSendLock ⟨raw.take RECV_BUFFER_LEN, addr⟩ (.ofU64 v))) := by
  obtain ⟨hd, s0, hh, ht, hdv, -⟩ := addressed_header ha
  have hdest : hd.getDestinationId = .ofU64 v := cidVal_inj (hdv.trans ((if_neg hkv).trans (hid.trans (cidVal_ofU64 v).symm)))
  have hh : (nextHeaderFromStream (makeResultStream (raw.take RECV_BUFFER_LEN))).1 = .ok hd := by rw [hh]
  have h1 := ((((h.goes (.callAccept _)).locks rfl hq).goes (.recv _ raw addr)).locks rfl hq).goes (.flag _ _)
  rw [hl] at h1
  have h2 := ((h1.goes (.noPrint _ _)).goes (.parseOther _ _ hd _ hh ht hki)).goes (.route _ _ hd hh)
  rw [hdest] at h2
  simpa using h2

theorem receivedBy_others {t : Nat} {tr : List (Nat × Label)} (h : ∀ e ∈ tr, e.1 ≠ t) : receivedBy t tr = [] ∧ handledBy t tr = [] := by
  induction tr with
  | nil => exact ⟨rfl, rfl⟩
  | cons e tr ih =>
    obtain ⟨h1, h2⟩ := ih (fun e he => h e (List.mem_cons_of_mem _ he))
    obtain ⟨o1, o2⟩ := other_nil (h e (List.mem_cons_self ..)) e.2
    rw [show e :: tr = [(e.1, e.2)] ++ tr from rfl, receivedBy_append, handledBy_append, h1, h2, o1, o2]
    exact ⟨rfl, rfl⟩

/-- Another thread's turn. -/
theorem sysAt_turn (pcs : Nat → Pc) (t t' : Nat) (k : Sock) (p q : Pc) (hne : t' ≠ t) (hi : pcs t' = q) :
    sysAt pcs t k p = sysAt (fun i => if i = t then p else pcs i) t' k q := by
  simp only [sysAt, Sys.mk.injEq, true_and]
  funext i
  by_cases h : i = t
  · subst h; simp [Ne.symm hne]
  · by_cases h' : i = t'
    · subst h'; simp [h, hi]
    · simp [h, h']

theorem turn_held {pcs : Nat → Pc} {t : Nat} {p : Pc} (hq : ∀ t, (pcs t).held = []) (hp : p.held = []) :
    ∀ i, ((fun i => if i = t then p else pcs i) i).held = [] := by
  intro i
  show (if i = t then p else pcs i).held = []
  split
  · exact hp
  · exact hq i

theorem run_start : Sys.Run P bp Sys.init [] (sysAt (fun _ => .idle) t Sock.bind .idle) := by
  have : sysAt (fun _ => .idle) t Sock.bind .idle = Sys.init := by
    simp only [sysAt, Sys.init, Sys.mk.injEq, true_and]
    funext i
    split <;> rfl
  rw [this]
  exact .nil _

/-- C121 fails for every id: a thread receives a datagram for an id nobody has; before it looks for the connection, another thread opens one for
another datagram and draws that id; the datagram is then put into its queue, first of all. -/
theorem C121_early (hP : PrimLaws P) (bp : Profile) (v : U64) (raw raw' : Bytes) (addr addr' : Nat) (id id' : Bytes) (kind : PacketType)
    (ha : Addressed (raw.take RECV_BUFFER_LEN) .initial id) (ha' : Addressed (raw'.take RECV_BUFFER_LEN) kind id')
    (hki : kind ≠ .initial) (hkv : kind ≠ .versionNegotiation) (hid : beNat id' = v.toNat) :
    ∃ a a1 a2 s x, Sys.Run P bp Sys.init (a ++ [(1, .sent (.ofU64 v) ⟨raw'.take RECV_BUFFER_LEN, addr'⟩)]) s
      ∧ TakenAt 1 ⟨raw'.take RECV_BUFFER_LEN, addr'⟩ a a1 a2 ∧ presentAfter (.ofU64 v) a1 = false
      ∧ s.sock.streams (.ofU64 v) = some x ∧ x.queue = [⟨raw'.take RECV_BUFFER_LEN, addr'⟩] := by
  obtain ⟨key, hk⟩ := u160_of_val (beNat id) (beNat_lt_160 (addressed_short ha (by decide)))
  have h1 := run_take (P := P) (bp := bp) (t := 1) (addr := addr') run_start (fun _ => rfl) rfl ha' hki hkv hid
  rw [sysAt_turn _ 1 0 _ _ .idle (by decide) rfl] at h1
  have q1 := turn_held (pcs := fun _ => .idle) (t := 1) (p := .aSendLock ⟨raw'.take RECV_BUFFER_LEN, addr'⟩ (.ofU64 v)) (fun _ => rfl) rfl
  obtain ⟨tr', x, e1, e2, -, -, h2⟩ := run_open hP h1 q1 rfl (v := v) (addr := addr) ha hk rfl rfl
  rw [sysAt_turn _ 0 1 _ _ (.aSendLock ⟨raw'.take RECV_BUFFER_LEN, addr'⟩ (.ofU64 v)) (by decide) rfl] at h2
  have q2 := turn_held (t := 0) (p := .aGetLock (.ofU64 v)) q1 rfl
  have h3 := (h2.locks rfl q2).goes (.send _ _ _ x (tableInsert_same ..))
  refine ⟨_, [(1, .tau), (1, .tau)], _, _, _, h3, ⟨by simp only [List.nil_append, List.cons_append]; rfl, ?_, ?_⟩, ?_, tableInsert_same .., ?_⟩
  · simp [receivedBy, receivedBy_append, (receivedBy_others (t := 1) (tr := tr') fun e he => by rw [(e1 e he).1]; decide).1]
  · simp [handledBy, handledBy_append, (receivedBy_others (t := 1) (tr := tr') fun e he => by rw [(e1 e he).1]; decide).2]
  · rfl
  · show x.queue ++ _ = _
    rw [e2]
    rfl

/-- C121 fails for every id also after the connection has been dropped: a thread receives a datagram for a connection, the connection is dropped,
another thread opens a new one and draws the same id, and the datagram is put into the queue of the new connection. -/
theorem C121_reused (hP : PrimLaws P) (bp : Profile) (v : U64) (raw raw' raw'' : Bytes) (addr addr' addr'' : Nat) (id id' id'' : Bytes) (kind : PacketType)
    (ha : Addressed (raw.take RECV_BUFFER_LEN) .initial id) (ha' : Addressed (raw'.take RECV_BUFFER_LEN) kind id')
    (ha'' : Addressed (raw''.take RECV_BUFFER_LEN) .initial id'')
    (hki : kind ≠ .initial) (hkv : kind ≠ .versionNegotiation) (hid : beNat id' = v.toNat) :
    ∃ a a1 a2 s x, Sys.Run P bp Sys.init (a ++ [(1, .sent (.ofU64 v) ⟨raw'.take RECV_BUFFER_LEN, addr'⟩)]) s
      ∧ TakenAt 1 ⟨raw'.take RECV_BUFFER_LEN, addr'⟩ a a1 a2 ∧ presentAfter (.ofU64 v) a1 = true ∧ Dropped (.ofU64 v) a2
      ∧ s.sock.streams (.ofU64 v) = some x ∧ x.queue = [⟨raw'.take RECV_BUFFER_LEN, addr'⟩]
      ∧ cidVal x.connection.dcid.1 = beNat id'' ∧ x.connection.dcid.2 = id''.length := by
  obtain ⟨key, hk⟩ := u160_of_val (beNat id) (beNat_lt_160 (addressed_short ha (by decide)))
  obtain ⟨key'', hk''⟩ := u160_of_val (beNat id'') (beNat_lt_160 (addressed_short ha'' (by decide)))
  -- the first connection
  obtain ⟨tr0, x0, e1, -, -, e4, h0⟩ := run_open hP (bp := bp) (t := 0) run_start (fun _ => rfl) rfl (v := v) (addr := addr) ha hk rfl rfl
  rw [sysAt_turn _ 0 1 _ _ .idle (by decide) rfl] at h0
  have q0 := turn_held (pcs := fun _ => .idle) (t := 0) (p := .aGetLock (.ofU64 v)) (fun _ => rfl) rfl
  -- the datagram
  have h1 := run_take (addr := addr') h0 q0 rfl ha' hki hkv hid
  rw [sysAt_turn _ 1 2 _ _ .idle (by decide) rfl] at h1
  have q1 := turn_held (t := 1) (p := .aSendLock ⟨raw'.take RECV_BUFFER_LEN, addr'⟩ (.ofU64 v)) q0 rfl
  -- the connection is dropped
  have h2 := ((h1.goes (.callDrop _ (.ofU64 v))).locks rfl q1).goes (.remove _ _)
  rw [sysAt_turn _ 2 3 _ _ .idle (by decide) rfl] at h2
  have q2 := turn_held (t := 2) (p := .idle) q1 rfl
  -- another one, by the same id
  have gone : ∀ key', tableRemove (tableInsert Sock.bind.streams (.ofU64 v) x0) (.ofU64 v) key' = none := by
    intro key'
    by_cases h : key' = .ofU64 v
    · subst h; exact tableRemove_same ..
    · rw [tableRemove_other h, tableInsert_other h]; rfl
  obtain ⟨tr3, x, g1, g2, g3, -, h3⟩ := run_open hP h2 q2 rfl (v := v) (addr := addr'') ha'' hk'' (gone _) (gone _)
  rw [sysAt_turn _ 3 1 _ _ (.aSendLock ⟨raw'.take RECV_BUFFER_LEN, addr'⟩ (.ofU64 v)) (by decide) rfl] at h3
  have q3 := turn_held (t := 3) (p := .aGetLock (.ofU64 v)) q2 rfl
  have h4 := (h3.locks rfl q3).goes (.send _ _ _ x (tableInsert_same ..))
  have o := receivedBy_others (t := 1) (tr := tr3) fun e he => by rw [(g1 e he).1]; decide
  refine ⟨_, [] ++ tr0 ++ [(1, .tau), (1, .tau)], _, _, _, h4, ⟨by simp only [List.append_assoc, List.cons_append]; rfl, ?_, ?_⟩, ?_, ?_, tableInsert_same .., ?_, ?_⟩
  · simp [receivedBy, receivedBy_append, o.1]
  · simp [handledBy, handledBy_append, o.2]
  · rw [presentAfter, List.foldl_append, ← presentAfter, e4]; rfl
  · exact ⟨2, by simp⟩
  · show x.queue ++ _ = _
    rw [g2]
    rfl
  · show cidVal x.connection.dcid.1 = _ ∧ x.connection.dcid.2 = _
    rw [g3]
    exact ⟨hk'', rfl⟩

/-- A Handshake packet for 6, and Initial packets for 5 and 4. -/
def exEarly : Bytes := [0xe3, 0, 0, 0, 1, 8, 0, 0, 0, 0, 0, 0, 0, 6, 0, 0]
theorem exEarly_addressed : Addressed (exEarly.take RECV_BUFFER_LEN) .handshake [0, 0, 0, 0, 0, 0, 0, 6] :=
  .inr ⟨0xe3, [0, 0, 0, 1], 8, 0, [], [0], 1, rfl, by decide, rfl, rfl, rfl, rfl, fun _ => ⟨by simp, by simp⟩, by decide⟩

theorem C121_false : ¬ C121Statement := by
  intro h
  obtain ⟨a, a1, a2, s, x, hr, ht, hp, -⟩ := C121_early toy_laws .debug 6 (exCross 5) exEarly 1 2 _ _ _ (exCross_addressed 5) exEarly_addressed
    (by decide) (by decide) (by decide)
  obtain ⟨b1, b2, ht', hp', -⟩ := h toy toy_laws .debug a [] s 1 _ _ hr
  rw [(ht.unique ht').1, hp'] at hp
  cases hp

example : ∃ a a1 a2 s x, Sys.Run toy .debug Sys.init (a ++ [(1, .sent (.ofU64 6) ⟨exEarly, 2⟩)]) s
    ∧ TakenAt 1 ⟨exEarly, 2⟩ a a1 a2 ∧ presentAfter (.ofU64 6) a1 = true ∧ Dropped (.ofU64 6) a2
    ∧ s.sock.streams (.ofU64 6) = some x ∧ x.queue = [⟨exEarly, 2⟩] ∧ cidVal x.connection.dcid.1 = 4 ∧ x.connection.dcid.2 = 8 :=
  C121_reused toy_laws .debug 6 (exCross 5) exEarly (exCross 4) 1 2 3 _ _ _ _ (exCross_addressed 5) exEarly_addressed (exCross_addressed 4)
    (by decide) (by decide) (by decide)

/-- The hypotheses of `C121_partial` are met: a connection is opened as 6, and then a datagram for it is received and delivered. -/
example : ∃ a s, Sys.Run toy .debug Sys.init (a ++ (1, .sent (.ofU64 6) ⟨exEarly, 2⟩) :: []) s
    ∧ ∀ a1 a2, TakenAt 1 ⟨exEarly, 2⟩ a a1 a2 → ∀ e ∈ a2, e.1 = 1 ∨ ∀ x, e.2 ≠ .registered (.ofU64 6) x := by
  obtain ⟨tr0, x0, -, -, -, -, h0⟩ := run_open toy_laws (bp := .debug) (t := 0) run_start (fun _ => rfl) rfl (v := 6) (key := .ofU64 5) (addr := 1)
    (exCross_addressed 5) (by decide) rfl rfl
  rw [sysAt_turn _ 0 1 _ _ .idle (by decide) rfl] at h0
  have q0 := turn_held (pcs := fun _ => .idle) (t := 0) (p := .aGetLock (.ofU64 6)) (fun _ => rfl) rfl
  have h1 := run_take (addr := 2) (v := 6) h0 q0 rfl exEarly_addressed (by decide) (by decide) (by decide)
  have h2 := (h1.locks rfl q0).goes (.send _ _ _ x0 (tableInsert_same Sock.bind.streams (.ofU64 6) x0))
  refine ⟨_, _, h2, ?_⟩
  intro a1 a2 ht e he
  have ht' : TakenAt 1 ⟨exEarly, 2⟩ (([] ++ tr0 ++ [(1, .tau), (1, .tau)]) ++ (1, .received ⟨exEarly, 2⟩) ::
    [(1, .tau), (1, .tau), (1, .tau), (1, .tau), (1, .tau), (1, .tau)]) _ _ := ⟨rfl, rfl, rfl⟩
  have ht2 := TakenAt.unique (a := _) ht (by simpa [exEarly, RECV_BUFFER_LEN] using ht')
  rw [ht2.2] at he
  simp only [List.mem_cons, List.not_mem_nil, or_false] at he
  left
  rcases he with rfl | rfl | rfl | rfl | rfl | rfl <;> rfl

end QuicSea
