import Verif.Props.Concurrent
import Verif.Props.Endpoint
import Verif.Props.Decode
/-
C85, C86: what the socket holds, against what it received.
-/
namespace QuicSea
open Spec Sock

variable {P : Prims} {bp : Profile}

/-! ### counting events -/

/-- How many datagrams were taken from the network. -/
def isReceived : Label → Bool
  | .received _ => true
  | _ => false
/-- How many of them start with the header of an Initial packet. -/
noncomputable def isInitialReceived : Label → Bool
  | .received d => @decide (∃ id, Addressed d.data .initial id) (Classical.propDecidable _)
  | _ => false
/-- Something was put into the table: an entry, or a datagram into the queue of an entry. -/
def isStored : Label → Bool
  | .sent _ _ => true
  | .registered _ _ => true
  | _ => false
def isRegistered : Label → Bool
  | .registered _ _ => true
  | _ => false
/-- The same, under this id. -/
def isStoredAt (key : U160) : Label → Bool
  | .sent key' _ => decide (key' = key)
  | .registered key' _ => decide (key' = key)
  | _ => false

/-- How often it happened, in any thread. -/
def happened (q : Label → Bool) (tr : List (Nat × Label)) : Nat := tr.countP fun e => q e.2

/-- And in one thread. -/
def happenedIn (t : Nat) (q : Label → Bool) (tr : List (Nat × Label)) : Nat := tr.countP fun e => decide (e.1 = t) && q e.2

theorem happened_split (q : Label → Bool) (t : Nat) (tr : List (Nat × Label)) :
    happened q tr = happenedIn t q tr + happened q (tr.filter fun e => decide (¬ e.1 = t)) := by
  induction tr with
  | nil => rfl
  | cons e tr ih =>
    unfold happened happenedIn at *
    rw [List.countP_cons, List.countP_cons, List.filter_cons]
    by_cases h : e.1 = t
    · simp only [h, decide_true, Bool.true_and, not_true_eq_false, decide_false, Bool.false_eq_true, if_false]
      omega
    · simp only [h, decide_false, Bool.false_and, not_false_eq_true, decide_true, if_true, Bool.false_eq_true, if_false, List.countP_cons]
      omega

theorem happenedIn_filter (q : Label → Bool) (t t' : Nat) (tr : List (Nat × Label)) :
    happenedIn t' q (tr.filter fun e => decide (¬ e.1 = t)) = if t' = t then 0 else happenedIn t' q tr := by
  unfold happenedIn
  rw [List.countP_filter]
  split
  · rename_i h
    rw [List.countP_eq_zero]
    rintro ⟨a, l⟩ -
    subst h
    simp
    omega
  · rename_i h
    apply List.countP_congr
    rintro ⟨a, l⟩ -
    simp only [Bool.and_eq_true, decide_eq_true_eq]
    constructor
    · exact fun x => x.1
    · exact fun x => ⟨x, by rw [x.1]; exact h⟩

/-- What holds of every thread's events holds of all events. -/
theorem happened_le {q r : Label → Bool} (tr : List (Nat × Label)) (h : ∀ t, happenedIn t q tr ≤ happenedIn t r tr) : happened q tr ≤ happened r tr := by
  generalize hn : tr.length = n
  induction n using Nat.strongRecOn generalizing tr with
  | _ n ih =>
    cases tr with
    | nil => exact Nat.le_refl _
    | cons e tr =>
      rw [happened_split q e.1, happened_split r e.1]
      refine Nat.add_le_add (h e.1) (ih _ ?_ _ ?_ rfl)
      · have hle := List.length_filter_le (fun x : Nat × Label => decide (¬ x.1 = e.1)) tr
        rw [List.filter_cons, if_neg (by simp), ← hn, List.length_cons]
        omega
      · intro t
        rw [happenedIn_filter, happenedIn_filter]
        split
        · exact Nat.le_refl _
        · exact h t

theorem happenedIn_snoc (t : Nat) (q : Label → Bool) (tr : List (Nat × Label)) (t' : Nat) (l : Label) :
    happenedIn t q (tr ++ [(t', l)]) = happenedIn t q tr + if t' = t ∧ q l = true then 1 else 0 := by
  unfold happenedIn
  rw [List.countP_append, List.countP_singleton]
  congr 1
  by_cases h : t' = t <;> simp [h]

/-! ### accounts of one thread -/

/-- Does a thread hold something that is still to be stored? -/
def load : Pc → Nat
  | .aRandom _ => 1
  | .aRegLock _ _ => 1
  | .aContains _ _ => 1
  | .aScidLock _ _ => 1
  | .aSetScid _ _ => 1
  | .aInsert _ _ => 1
  | p => (pending p).length

theorem act_load {p k l p' k'} (h : Act P bp p k l p' k') :
    (if isStored l = true then 1 else 0) + load p' ≤ load p + if isReceived l = true then 1 else 0 := by
  cases h <;> simp [load, pending, isStored, isReceived]

theorem wants_load {p p' : Pc} {l m} (h : p.wants = some (l, m, p')) : load p' = load p := by
  cases p <;> simp only [Pc.wants, Option.some.injEq, Prod.mk.injEq, reduceCtorEq] at h <;> obtain ⟨-, -, rfl⟩ := h <;> simp [load, pending]

/-- Only the thread that moves changes. -/
theorem step_pc_other {s t l s'} (hs : Sys.Step P bp s t l s') {t'} (h : t ≠ t') : s'.pc t' = s.pc t' := by
  cases hs <;> simp [Sys.kill, Sys.goto, Ne.symm h]

theorem thread_stored {tr s} (hr : Sys.Run P bp Sys.init tr s) (t : Nat) :
    happenedIn t isStored tr + load (s.pc t) ≤ happenedIn t isReceived tr := by
  induction hr with
  | nil => exact Nat.le_refl _
  | @snoc tr2 s2 t2 l s3 hp hs ih =>
    rw [happenedIn_snoc, happenedIn_snoc]
    by_cases ht : t2 = t
    · subst ht
      simp only [true_and]
      cases hs with
      | act _ p k ha =>
        have := act_load ha
        rw [show ({ s2.goto t2 p with sock := k } : Sys).pc t2 = p by simp [Sys.goto]]
        omega
      | acquire _ m p hw =>
        rw [show (s2.goto t2 p).pc t2 = p by simp [Sys.goto], wants_load hw]
        simpa [isStored, isReceived] using ih
      | poisoned =>
        rw [show (s2.kill t2).pc t2 = .dead by simp [Sys.kill, Sys.goto]]
        simp [isStored, isReceived, load, pending]
        omega
      | panic =>
        rw [show (s2.kill t2).pc t2 = .dead by simp [Sys.kill, Sys.goto]]
        simp [isStored, isReceived, load, pending]
        omega
    · rw [step_pc_other hs ht]
      simpa [ht] using ih

open Classical in
/-- Does a thread hold an Initial datagram, or a connection made for one? -/
noncomputable def loadInitial : Pc → Nat
  | .aLog d => if ∃ id, Addressed d.data .initial id then 1 else 0
  | .aFlag d => if ∃ id, Addressed d.data .initial id then 1 else 0
  | .aPrint d _ => if ∃ id, Addressed d.data .initial id then 1 else 0
  | .aParse d => if ∃ id, Addressed d.data .initial id then 1 else 0
  | .aCheckLock _ _ => 1
  | .aCheck _ _ => 1
  | .aNew _ => 1
  | .aRandom _ => 1
  | .aRegLock _ _ => 1
  | .aContains _ _ => 1
  | .aScidLock _ _ => 1
  | .aSetScid _ _ => 1
  | .aInsert _ _ => 1
  | _ => 0

theorem parsed_initial {d : Datagram} {h : PacketHeader} (he : (nextHeaderFromStream (makeResultStream d.data)).1 = .ok h)
    (ht : h.getPacketType = .ok .initial) : ∃ id, Addressed d.data .initial id ∧ cidVal h.getDestinationId = beNat id ∧ h.getDestinationIdLength.toNat = id.length := by
  rcases hn : nextHeaderFromStream (makeResultStream d.data) with ⟨o, s'⟩
  rw [hn] at he
  dsimp only at he
  subst he
  obtain ⟨kind, id, a1, a2, a3, a4, -⟩ := header_addressed hn
  rw [ht] at a2
  cases a2
  exact ⟨id, a1, a3, a4⟩

theorem act_loadInitial {p k l p' k'} (h : Act P bp p k l p' k') :
    (if isRegistered l = true then 1 else 0) + loadInitial p' ≤ loadInitial p + if isInitialReceived l = true then 1 else 0 := by
  cases h with
  | parseInitial k d hd he ht =>
    obtain ⟨id, a, -⟩ := parsed_initial he ht
    have : ∃ id, Addressed d.data .initial id := ⟨id, a⟩
    simp [loadInitial, isRegistered, isInitialReceived, this]
  | recv k raw addr =>
    by_cases h : ∃ id, Addressed (raw.take RECV_BUFFER_LEN) .initial id
    · simp only [loadInitial, isRegistered, isInitialReceived, if_pos h]
      simp [h]
    · simp only [loadInitial, isRegistered, isInitialReceived, if_neg h]
      simp
  | _ => simp [loadInitial, isRegistered, isInitialReceived]

theorem wants_loadInitial {p p' : Pc} {l m} (h : p.wants = some (l, m, p')) : loadInitial p' = loadInitial p := by
  cases p <;> simp only [Pc.wants, Option.some.injEq, Prod.mk.injEq, reduceCtorEq] at h <;> obtain ⟨-, -, rfl⟩ := h <;> simp [loadInitial]

theorem thread_registered {tr s} (hr : Sys.Run P bp Sys.init tr s) (t : Nat) :
    happenedIn t isRegistered tr + loadInitial (s.pc t) ≤ happenedIn t isInitialReceived tr := by
  induction hr with
  | nil => exact Nat.le_refl _
  | @snoc tr2 s2 t2 l s3 hp hs ih =>
    rw [happenedIn_snoc, happenedIn_snoc]
    by_cases ht : t2 = t
    · subst ht
      simp only [true_and]
      cases hs with
      | act _ p k ha =>
        have := act_loadInitial ha
        rw [show ({ s2.goto t2 p with sock := k } : Sys).pc t2 = p by simp [Sys.goto]]
        omega
      | acquire _ m p hw =>
        rw [show (s2.goto t2 p).pc t2 = p by simp [Sys.goto], wants_loadInitial hw]
        simpa [isRegistered, isInitialReceived] using ih
      | poisoned =>
        rw [show (s2.kill t2).pc t2 = .dead by simp [Sys.kill, Sys.goto]]
        simp [isRegistered, isInitialReceived, loadInitial]
        omega
      | panic =>
        rw [show (s2.kill t2).pc t2 = .dead by simp [Sys.kill, Sys.goto]]
        simp [isRegistered, isInitialReceived, loadInitial]
        omega
    · rw [step_pc_other hs ht]
      simpa [ht] using ih

/-! ### accounts of the table -/

theorem sum_flags_le {ks : List U160} (hk : ks.Nodup) (f : U160 → Bool) (b : Bool) (h : ∀ k, f k = true → b = true)
    (hu : ∀ k k', f k = true → f k' = true → k = k') : (ks.map fun k => if f k = true then 1 else 0).sum ≤ if b = true then 1 else 0 := by
  induction ks with
  | nil => exact Nat.zero_le _
  | cons k ks ih =>
    rw [List.nodup_cons] at hk
    rw [List.map_cons, List.sum_cons]
    by_cases hf : f k = true
    · have hz : (ks.map fun k => if f k = true then 1 else 0).sum = 0 := by
        have : ∀ x ∈ ks, f x ≠ true := fun x hx hx' => hk.1 (hu x k hx' hf ▸ hx)
        clear ih hk
        induction ks with
        | nil => rfl
        | cons y ys ih' =>
          rw [List.map_cons, List.sum_cons, if_neg (this y List.mem_cons_self), ih' (fun x hx => this x (List.mem_cons_of_mem _ hx))]
      rw [hz, if_pos hf, if_pos (h k hf)]
      exact Nat.le_refl _
    · rw [if_neg hf, Nat.zero_add]
      exact ih hk.2

theorem sum_map_add (ks : List U160) (f g : U160 → Nat) : (ks.map fun k => f k + g k).sum = (ks.map f).sum + (ks.map g).sum := by
  induction ks with
  | nil => rfl
  | cons k ks ih => simp only [List.map_cons, List.sum_cons, ih]; omega
theorem sum_map_le (ks : List U160) (f g : U160 → Nat) (h : ∀ k ∈ ks, f k ≤ g k) : (ks.map f).sum ≤ (ks.map g).sum := by
  induction ks with
  | nil => exact Nat.le_refl _
  | cons k ks ih =>
    simp only [List.map_cons, List.sum_cons]
    exact Nat.add_le_add (h k List.mem_cons_self) (ih fun x hx => h x (List.mem_cons_of_mem _ hx))

theorem isStoredAt_iff (l : Label) : (∀ k, isStoredAt k l = true → isStored l = true) ∧ ∀ k k', isStoredAt k l = true → isStoredAt k' l = true → k = k' := by
  cases l <;> simp [isStoredAt, isStored]

theorem happened_cons (q : Label → Bool) (e : Nat × Label) (tr : List (Nat × Label)) : happened q (e :: tr) = (if q e.2 = true then 1 else 0) + happened q tr := by
  unfold happened
  rw [List.countP_cons]
  omega
theorem happened_append (q : Label → Bool) (a b : List (Nat × Label)) : happened q (a ++ b) = happened q a + happened q b := List.countP_append ..

/-- What is stored under different ids adds up to at most what is stored. -/
theorem stored_sum {ks : List U160} (hk : ks.Nodup) (tr : List (Nat × Label)) : (ks.map fun k => happened (isStoredAt k) tr).sum ≤ happened isStored tr := by
  induction tr with
  | nil =>
    clear hk
    induction ks with
    | nil => exact Nat.le_refl _
    | cons k ks ih => rw [List.map_cons, List.sum_cons]; exact (Nat.zero_add _).symm ▸ ih
  | cons e tr ih =>
    rw [happened_cons]
    rw [show (fun k => happened (isStoredAt k) (e :: tr)) = fun k => (if isStoredAt k e.2 = true then 1 else 0) + happened (isStoredAt k) tr from
      funext fun k => happened_cons _ _ _, sum_map_add]
    exact Nat.add_le_add (sum_flags_le hk _ _ (isStoredAt_iff e.2).1 (isStoredAt_iff e.2).2) ih

theorem routedTo_count (key : U160) (tr : List (Nat × Label)) : (routedTo key tr).length ≤ happened (isStoredAt key) tr := by
  induction tr with
  | nil => exact Nat.le_refl _
  | cons e tr ih =>
    obtain ⟨t, l⟩ := e
    rw [happened_cons]
    cases l with
    | sent key' d =>
      simp only [routedTo, isStoredAt, decide_eq_true_eq]
      split
      · rw [List.length_cons]; omega
      · omega
    | _ => simp only [routedTo]; omega

/-- The number of datagrams waiting for a connection. -/
def queueLen (k : Sock) (key : U160) : Nat := match k.streams key with
  | some x => x.queue.length
  | none => 0

theorem entry_stored {tr s} (hr : Sys.Run P bp Sys.init tr s) (key : U160) (h : (s.sock.streams key).isSome) :
    1 + queueLen s.sock key ≤ happened (isStoredAt key) tr := by
  obtain ⟨x, hx⟩ := Option.isSome_iff_exists.mp h
  obtain ⟨tr1, s1, t, x0, s2, tr2, rfl, -, -, -, -, -, -, -, e⟩ := C44_since_created hr key x hx
  have hq : queueLen s.sock key = (routedTo key tr2).length := by rw [queueLen, hx, e]
  rw [hq, happened_append, happened_cons]
  have := routedTo_count key tr2
  simp only [isStoredAt, decide_true, if_true]
  omega

/-! ## C85 -/

/-- **C85.** In every reachable state, under any schedule of any number of threads: the connections in the table and the datagrams waiting in their queues, together,
are no more than the datagrams received. (`ks` is any list of different ids in the table.) -/
theorem C85_memory {tr s} (hr : Sys.Run P bp Sys.init tr s) (ks : List U160) (hk : ks.Nodup) (hin : ∀ k ∈ ks, (s.sock.streams k).isSome) :
    ks.length + (ks.map (queueLen s.sock)).sum ≤ tr.countP fun e => isReceived e.2 := by
  have h1 := stored_sum hk tr
  have h2 : happened isStored tr ≤ happened isReceived tr := happened_le tr fun t => by have := thread_stored hr t; omega
  have h3 := sum_map_le ks (fun k => 1 + queueLen s.sock k) (fun k => happened (isStoredAt k) tr) fun k hk' => entry_stored hr k (hin k hk')
  have h4 : (ks.map fun _ => 1).sum = ks.length := by
    clear hk hin h1 h3
    induction ks with
    | nil => rfl
    | cons k ks ih => rw [List.map_cons, List.sum_cons, ih, List.length_cons]; omega
  rw [sum_map_add ks (fun _ => 1), h4] at h3
  unfold happened at h1 h2 h3
  omega

/-- C85: the connections in the table are no more than the received datagrams that start with the header of an Initial packet. -/
theorem C85_connections {tr s} (hr : Sys.Run P bp Sys.init tr s) (ks : List U160) (hk : ks.Nodup) (hin : ∀ k ∈ ks, (s.sock.streams k).isSome) :
    ks.length ≤ tr.countP fun e => isInitialReceived e.2 := by
  have h2 : happened isRegistered tr ≤ happened isInitialReceived tr := happened_le tr fun t => by have := thread_registered hr t; omega
  refine Nat.le_trans ?_ h2
  have h3 : ∀ k ∈ ks, ∃ t x, (t, Label.registered k x) ∈ tr := by
    intro k hk'
    obtain ⟨x, hx⟩ := Option.isSome_iff_exists.mp (hin k hk')
    obtain ⟨tr1, s1, t, x0, s2, tr2, rfl, -⟩ := C44_since_created hr k x hx
    exact ⟨t, x0, by simp⟩
  clear h2 hin hr
  induction tr generalizing ks with
  | nil =>
    cases ks with
    | nil => exact Nat.le_refl _
    | cons k ks => obtain ⟨_, _, h⟩ := h3 k List.mem_cons_self; cases h
  | cons e tr ih =>
    obtain ⟨t, l⟩ := e
    rw [happened_cons]
    by_cases hl : ∃ k x, l = .registered k x
    · obtain ⟨k, x, rfl⟩ := hl
      have := ih (ks.erase k) (hk.erase k) (fun k' hk' => by
        obtain ⟨t', x', h⟩ := h3 k' (List.mem_of_mem_erase hk')
        rcases List.mem_cons.mp h with h | h
        · cases h
          exact absurd hk' (hk.not_mem_erase)
        · exact ⟨t', x', h⟩)
      have hlen := List.length_erase (a := k) (l := ks)
      simp only [isRegistered, if_true]
      split at hlen <;> omega
    · have := ih ks hk (fun k' hk' => by
        obtain ⟨t', x', h⟩ := h3 k' hk'
        rcases List.mem_cons.mp h with h | h
        · cases h; exact absurd ⟨_, _, rfl⟩ hl
        · exact ⟨t', x', h⟩)
      omega

theorem received_size {tr s} (hr : Sys.Run P bp Sys.init tr s) (t : Nat) (d : Datagram) (h : (t, Label.received d) ∈ tr) : d.data.length ≤ 4096 := by
  induction hr with
  | nil => cases h
  | @snoc tr2 s2 t2 l s3 hp hs ih =>
    rcases List.mem_append.mp h with h | h
    · exact ih h
    · cases List.mem_singleton.mp h
      cases hs with
      | act _ p k ha =>
        generalize s2.pc t = q at ha
        cases ha with
        | recv _ raw addr => exact List.length_take_le ..

theorem routedTo_mem {key : U160} {d : Datagram} {tr : List (Nat × Label)} (h : d ∈ routedTo key tr) : ∃ t, (t, Label.sent key d) ∈ tr := by
  induction tr with
  | nil => cases h
  | cons e tr ih =>
    obtain ⟨t, l⟩ := e
    have go : d ∈ routedTo key tr → ∃ t', (t', Label.sent key d) ∈ (t, l) :: tr := fun h => by
      obtain ⟨t', h⟩ := ih h
      exact ⟨t', List.mem_cons_of_mem _ h⟩
    cases l with
    | sent key' d' =>
      simp only [routedTo] at h
      split at h
      · rename_i e
        rcases List.mem_cons.mp h with rfl | h
        · rw [e]; exact ⟨t, List.mem_cons_self⟩
        · exact go h
      · exact go h
    | _ => exact go h
theorem sent_handled {t : Nat} {key : U160} {d : Datagram} {tr : List (Nat × Label)} (h : (t, Label.sent key d) ∈ tr) : d ∈ handledBy t tr := by
  induction tr with
  | nil => cases h
  | cons e tr ih =>
    obtain ⟨t', l⟩ := e
    rcases List.mem_cons.mp h with h | h
    · cases h; simp [handledBy]
    · have := ih h
      cases l <;> simp only [handledBy] <;> first | exact this | (split; exact List.mem_cons_of_mem _ this; exact this)
theorem receivedBy_mem {t : Nat} {d : Datagram} {tr : List (Nat × Label)} (h : d ∈ receivedBy t tr) : (t, Label.received d) ∈ tr := by
  induction tr with
  | nil => cases h
  | cons e tr ih =>
    obtain ⟨t', l⟩ := e
    cases l with
    | received d' =>
      simp only [receivedBy] at h
      split at h
      · rename_i e
        rcases List.mem_cons.mp h with rfl | h
        · rw [e]; exact List.mem_cons_self
        · exact List.mem_cons_of_mem _ (ih h)
      · exact List.mem_cons_of_mem _ (ih h)
    | _ => exact List.mem_cons_of_mem _ (ih h)

/-- C85: every waiting datagram was received, and has at most 4096 bytes. -/
theorem C85_datagrams {tr s} (hr : Sys.Run P bp Sys.init tr s) (key : U160) (x : StreamState) (hx : s.sock.streams key = some x) (d : Datagram) (hd : d ∈ x.queue) :
    (∃ t, (t, Label.received d) ∈ tr) ∧ d.data.length ≤ 4096 := by
  obtain ⟨tr1, s1, t, x0, s2, tr2, e, -, -, -, -, -, -, -, rfl⟩ := C44_since_created hr key x hx
  obtain ⟨t', h⟩ := routedTo_mem hd
  have h' : (t', Label.sent key d) ∈ tr := by rw [e]; exact List.mem_append_right _ (List.mem_cons_of_mem _ h)
  obtain ⟨rest, hl, -⟩ := C44_lossless hr t'
  have hm : d ∈ receivedBy t' tr := by rw [hl]; exact List.mem_append_left _ (sent_handled h')
  have := receivedBy_mem hm
  exact ⟨⟨t', this⟩, received_size hr t' d this⟩

/-! ## C86 -/

/-- C86, full statement (RFC 9001 section 5.2, RFC 9000 section 5.2.2): a connection is opened only for a datagram with an authentic Initial packet, that is, one the
new connection can decode. -/
def C86For (P : Prims) : Prop := ∀ (bp : Profile) (k k' : Sock) (raw : Bytes) (addr : Nat) (net' : List NetEvent) (rng rng' : List U64) (r : Io U160),
  k.accept P [.datagram raw addr] rng = (r, k', net', rng') → ∀ key x, k.streams key = none → k'.streams key = some x →
    ∃ p s, decodeNextPacket bp x.connection (makeResultStream (seen raw addr).data) = (.ok (.initial p), s)
/-- The claim, for all algorithms that obey the laws. -/
def C86Statement : Prop := ∀ P, PrimLaws P → C86For P

/-- One datagram with an Initial header, received again and again, opens one connection each time: after `ids.length` calls of `accept` the table has an entry for each
of the random ids. -/
theorem flood (hP : PrimLaws P) (raw : Bytes) (addr : Nat) (id : Bytes) (ha : Addressed (seen raw addr).data .initial id) (ids : List U64) (hn : ids.Nodup)
    (hid : ∀ i ∈ ids, i.toNat ≠ beNat id) (k : Sock) (hk : ∀ key, cidVal key = beNat id → k.streams key = none) (hf : ∀ i ∈ ids, k.streams (.ofU64 i) = none) :
    (∀ i ∈ ids, ((Sock.run P bp k (ids.map fun i => .accept [.datagram raw addr] [i])).2.streams (.ofU64 i)).isSome) ∧
    ∀ key, (k.streams key).isSome → ((Sock.run P bp k (ids.map fun i => .accept [.datagram raw addr] [i])).2.streams key).isSome := by
  induction ids generalizing k with
  | nil => exact ⟨(fun _ h => by cases h), fun _ h => h⟩
  | cons i ids ih =>
    rw [List.nodup_cons] at hn
    rcases hac : k.accept P [.datagram raw addr] [i] with ⟨r, k1, net', rng'⟩
    have hfree : ∀ key, cidVal key = i.toNat → k.streams key = none := by
      intro key h
      rw [show key = .ofU64 i from cidVal_inj (by rw [h, cidVal_ofU64])]
      exact hf i List.mem_cons_self
    obtain ⟨key, c, dcid, a1, -, -, a4, a5⟩ := accepted hP ha hk hfree hac
    have hkey : key = .ofU64 i := cidVal_inj (by rw [a1, cidVal_ofU64])
    subst hkey
    have hrun : (Sock.run P bp k ((i :: ids).map fun i => .accept [.datagram raw addr] [i])).2 =
        (Sock.run P bp k1 (ids.map fun i => .accept [.datagram raw addr] [i])).2 := by
      simp only [List.map_cons, Sock.run, Sock.step, hac]
    rw [hrun]
    obtain ⟨g1, g2⟩ := ih hn.2 (fun j hj => hid j (List.mem_cons_of_mem _ hj)) k1 (by
        intro key' h
        rw [a5 key' (by rintro rfl; exact hid i List.mem_cons_self (a1.symm.trans h))]
        exact hk key' h) (by
        intro j hj
        rw [a5 _ (by
          intro e
          have := congrArg cidVal e
          rw [cidVal_ofU64, cidVal_ofU64] at this
          exact hn.1 (BitVec.eq_of_toNat_eq this ▸ hj))]
        exact hf j (List.mem_cons_of_mem _ hj))
    refine ⟨?_, ?_⟩
    · intro j hj
      rcases List.mem_cons.mp hj with rfl | hj
      · exact g2 _ (by rw [a4]; rfl)
      · exact g1 j hj
    · intro key' h
      refine g2 key' ?_
      rw [a5 key' (by rintro rfl; rw [hf i List.mem_cons_self] at h; cases h)]
      exact h

/-- C86 is false, and nothing limits the number of connections opened this way: any datagram that starts with an Initial header, whatever follows the header, opens as many
connections as it is received times, up to the number of ids. The states are states of a new socket after a history of calls. -/
theorem C86_flood (P : Prims) (hP : PrimLaws P) (bp : Profile) (raw : Bytes) (addr : Nat) (v : U32) (d s : Bytes) (ho : OpensWith (seen raw addr).data v d s)
    (ids : List U64) (hn : ids.Nodup) (hid : ∀ i ∈ ids, i.toNat ≠ beNat d) :
    ∃ (tr : List (Nat × Label)) (st : Sys) (ks : List U160), Sys.Run P bp Sys.init tr st ∧ st.sock = (Sock.run P bp Sock.bind (ids.map fun i => .accept [.datagram raw addr] [i])).2 ∧
      ks.Nodup ∧ ks.length = ids.length ∧ ∀ key ∈ ks, (st.sock.streams key).isSome := by
  obtain ⟨tr, st, hr, hs, -⟩ := history_reachable (P := P) (bp := bp) (ids.map fun i => .accept [.datagram raw addr] [i]) (by
    intro op hop
    obtain ⟨i, -, rfl⟩ := List.mem_map.mp hop
    rfl)
  refine ⟨tr, st, ids.map .ofU64, hr, hs, ?_, List.length_map .., ?_⟩
  · unfold List.Nodup
    rw [List.pairwise_map]
    refine List.Pairwise.imp ?_ hn
    intro a b hab e
    have := congrArg cidVal e
    rw [cidVal_ofU64, cidVal_ofU64] at this
    exact hab (BitVec.eq_of_toNat_eq this)
  · intro key hkey
    obtain ⟨i, hi, rfl⟩ := List.mem_map.mp hkey
    rw [hs]
    exact (flood hP raw addr d (opens_addressed ho) ids hn hid Sock.bind (fun _ _ => rfl) (fun _ _ => rfl)).1 i hi

/-- No Initial packet of less than 29 bytes is decoded, by any connection. -/
theorem short_not_decoded (hP : PrimLaws P) {bp' : Profile} {c : Connection} (hr : Connection.Reachable P bp c) {data : Bytes} (hl : data.length < 29) {p : PacketInitial} {s : Stream} :
    decodeNextPacket bp' c (makeResultStream data) ≠ (.ok (.initial p), s) := by
  intro h
  obtain ⟨⟨kl, kr, _, hkr, _, m⟩, -⟩ := reachable_keys hP hr
  obtain ⟨out, hb, tl, lb, pl, skip, L, g1, ⟨vb, d', s'', w1, w2, _⟩, _, _, g4, g5, ⟨nb, ct, tag, _, _, _, _, _, _, pnM, _, _, i3, _, i5, _, _, _, i9⟩, _⟩ := initial_opened m hkr.2.1 h
  have e1 : data.length = out.length + s.length := by
    have := congrArg List.length g1
    simpa [makeResultStream] using this
  have e2 : 6 ≤ hb.length := by
    have := congrArg List.length w1
    simp only [List.length_cons, List.length_append, List.length_nil] at this
    omega
  have v1 : ∀ {bs : Bytes} {v : Nat}, IsVarInt bs v → 1 ≤ bs.length := fun hv => by
    obtain ⟨b, rest, rfl, -⟩ := hv.shape
    rw [List.length_cons]; omega
  have v2 := v1 g4
  have v3 := v1 g5
  have e3 := congrArg List.length i9
  simp only [List.length_cons, List.length_append, List.length_nil] at e3 i5
  omega

/-- C86 is false for every datagram of less than 29 bytes with an Initial header: it opens a connection, although no Initial packet fits in it. -/
theorem C86_unauthentic_opens (P : Prims) (hP : PrimLaws P) (bp : Profile) (k k' : Sock) (raw : Bytes) (addr : Nat) (net net' : List NetEvent) (v : U32)
    (d s : Bytes) (srcId : U64) (rng rng' : List U64) (r : Io U160) (ho : OpensWith (seen raw addr).data v d s) (hl : raw.length < 29)
    (hn : ∀ key, cidVal key = beNat d → k.streams key = none) (hf : ∀ key, cidVal key = srcId.toNat → k.streams key = none)
    (h : k.accept P (.datagram raw addr :: net) (srcId :: rng) = (r, k', net', rng')) :
    ∃ key x, k.streams key = none ∧ k'.streams key = some x ∧
      ∀ p s', decodeNextPacket bp x.connection (makeResultStream (seen raw addr).data) ≠ (.ok (.initial p), s') := by
  obtain ⟨key, c, dcid, a1, a2, a3, a4, a5⟩ := accepted hP (opens_addressed ho) hn hf h
  refine ⟨key, _, hf key a1, a4, fun p s' => ?_⟩
  have hr : Connection.Reachable P bp { c with scid := some (key, 8) } := ⟨true, .v1, dcid, d.length, c, [.setScid key 8], a3, rfl⟩
  exact short_not_decoded hP hr (Nat.lt_of_le_of_lt (List.length_take_le' ..) hl)

theorem exOpening_unauthentic (r : Io U160) (k' : Sock) (net' : List NetEvent) (rng' : List U64) (h : Sock.bind.accept toy [.datagram exOpening 1] [7] = (r, k', net', rng')) :
    ∃ key x, Sock.bind.streams key = none ∧ k'.streams key = some x ∧
      ∀ p s', decodeNextPacket .debug x.connection (makeResultStream (seen exOpening 1).data) ≠ (.ok (.initial p), s') :=
  C86_unauthentic_opens toy toy_laws .debug Sock.bind k' exOpening 1 [] net' 1 _ _ 7 [] rng' r exOpening_opens (by decide) (fun _ _ => rfl) (fun _ _ => rfl) h

theorem C86_false : ¬ C86Statement := by
  intro hs
  obtain ⟨key, x, h1, h2, h3⟩ := exOpening_unauthentic _ _ _ _ rfl
  obtain ⟨p, s, hd⟩ := hs toy toy_laws .debug Sock.bind _ exOpening 1 _ [7] _ _ rfl key x h1 h2
  exact h3 p s hd

/-- A connection made for this datagram. -/
def MadeFor (tr : List (Nat × Label)) (t : Nat) (c : Connection) : Prop :=
  ∃ d id, (t, Label.received d) ∈ tr ∧ Addressed d.data .initial id ∧ c.dcid.2 = id.length ∧ cidVal c.dcid.1 = beNat id

/-- What a thread holds comes from datagrams it received. -/
def PcFrom (tr : List (Nat × Label)) (t : Nat) : Pc → Prop
  | .aRandom s => MadeFor tr t s.connection
  | .aRegLock s _ => MadeFor tr t s.connection
  | .aContains s _ => MadeFor tr t s.connection
  | .aScidLock s _ => MadeFor tr t s.connection
  | .aSetScid s _ => MadeFor tr t s.connection
  | .aInsert s _ => MadeFor tr t s.connection
  | .aCheckLock d _ => (t, Label.received d) ∈ tr ∧ ∃ id, Addressed d.data .initial id
  | .aCheck d _ => (t, Label.received d) ∈ tr ∧ ∃ id, Addressed d.data .initial id
  | .aNew d => (t, Label.received d) ∈ tr ∧ ∃ id, Addressed d.data .initial id
  | p => ∀ d ∈ pending p, (t, Label.received d) ∈ tr

theorem madeFor_mono {tr tr' : List (Nat × Label)} {t c} (h : MadeFor tr t c) : MadeFor (tr ++ tr') t c := by
  obtain ⟨d, id, h1, h2⟩ := h
  exact ⟨d, id, List.mem_append_left _ h1, h2⟩
theorem pcFrom_mono {tr tr' : List (Nat × Label)} {t p} (h : PcFrom tr t p) : PcFrom (tr ++ tr') t p := by
  cases p <;> first
    | exact madeFor_mono h
    | exact ⟨List.mem_append_left _ h.1, h.2⟩
    | exact fun d hd => List.mem_append_left _ (h d hd)

theorem new_madeFor {tr : List (Nat × Label)} {t : Nat} {d : Datagram} {c : Connection} (hr : (t, Label.received d) ∈ tr) {id : Bytes} (ha : Addressed d.data .initial id)
    (h : newConnectionFor P d = .ok c) : MadeFor tr t c := by
  obtain ⟨hd, s', e, -, hv, hl⟩ := addressed_header ha
  unfold newConnectionFor at h
  rw [e] at h
  simp only [Out.unwrap, Out.ok_bind] at h
  refine ⟨d, id, hr, ha, ?_⟩
  cases hc : Connection.new P true .v1 hd.getDestinationId hd.getDestinationIdLength.toNat with
  | ok c' =>
    rw [hc] at h
    cases h
    obtain ⟨_, _, _, _, _, _, rfl⟩ := new_ok' hc
    exact ⟨hl, hv⟩
  | err e => rw [hc] at h; cases h
  | panic e => rw [hc] at h; cases h

theorem act_pcFrom {tr : List (Nat × Label)} {t p k l p' k'} (h : Act P bp p k l p' k') (hp : PcFrom tr t p) : PcFrom (tr ++ [(t, l)]) t p' := by
  cases h with
  | recv k raw addr =>
    intro d hd
    rw [List.mem_singleton.mp hd]
    exact List.mem_append_right _ List.mem_cons_self
  | parseInitial k d hd he ht =>
    obtain ⟨id, a, -⟩ := parsed_initial he ht
    exact ⟨List.mem_append_left _ (hp d List.mem_cons_self), id, a⟩
  | new k d c hc => obtain ⟨h1, id, h2⟩ := hp; exact madeFor_mono (new_madeFor h1 h2 hc)
  | checkNew => exact pcFrom_mono (p := .aNew _) hp
  | checkKnown k d => intro d' hd; rw [List.mem_singleton.mp hd]; exact List.mem_append_left _ hp.1
  | setScid k s key => exact madeFor_mono (tr := tr) (c := s.connection.setScid key 8) hp
  | random k s => exact madeFor_mono (tr := tr) hp
  | fresh k s => exact madeFor_mono (tr := tr) hp
  | taken k s => exact madeFor_mono (tr := tr) hp
  | flag | print | noPrint | parseOther | parseError | route | routeError | sendMissing =>
    intro d' hd; exact List.mem_append_left _ (hp d' hd)
  | _ => intro d' hd; cases hd

theorem wants_pcFrom {tr : List (Nat × Label)} {t : Nat} {p p' : Pc} {l m} (h : p.wants = some (l, m, p')) (hp : PcFrom tr t p) : PcFrom tr t p' := by
  cases p <;> simp only [Pc.wants, Option.some.injEq, Prod.mk.injEq, reduceCtorEq] at h <;> obtain ⟨-, -, rfl⟩ := h <;> first
    | exact hp
    | (intro d hd; cases hd)

theorem run_pcFrom {tr s} (hr : Sys.Run P bp Sys.init tr s) : ∀ t, PcFrom tr t (s.pc t) := by
  induction hr with
  | nil => intro t d hd; cases hd
  | @snoc tr2 s2 t2 l s3 hp hs ih =>
    intro t
    by_cases ht : t2 = t
    · subst ht
      cases hs with
      | act _ p k ha =>
        rw [show ({ s2.goto t2 p with sock := k } : Sys).pc t2 = p by simp [Sys.goto]]
        exact act_pcFrom ha (ih t2)
      | acquire _ m p hw =>
        rw [show (s2.goto t2 p).pc t2 = p by simp [Sys.goto]]
        exact pcFrom_mono (wants_pcFrom hw (ih t2))
      | poisoned =>
        rw [show (s2.kill t2).pc t2 = .dead by simp [Sys.kill, Sys.goto]]
        intro d hd; cases hd
      | panic =>
        rw [show (s2.kill t2).pc t2 = .dead by simp [Sys.kill, Sys.goto]]
        intro d hd; cases hd
    · rw [step_pc_other hs ht]
      exact pcFrom_mono (ih t)

/-- **C86, partial**: under any schedule, every connection in the table was made for a received datagram that starts with the header of an Initial packet, and has the
destination id of that header. Missing: that the packet is authentic (`C86_flood`). -/
theorem C86_initial_header_partial {tr s} (hr : Sys.Run P bp Sys.init tr s) (key : U160) (x : StreamState) (hx : s.sock.streams key = some x) :
    ∃ t d id, (t, Label.received d) ∈ tr ∧ Addressed d.data .initial id ∧ x.connection.dcid.2 = id.length ∧ cidVal x.connection.dcid.1 = beNat id := by
  obtain ⟨tr1, s1, t, x0, s2, tr2, rfl, h1, h2, -, -, -, -, -, rfl⟩ := C44_since_created hr key x hx
  have hp : s1.pc t = .aInsert x0 key := by
    cases h2 with
    | act _ p k ha =>
      generalize s1.pc t = q at ha
      cases ha
      rfl
  have := run_pcFrom h1 t
  rw [hp] at this
  obtain ⟨d, id, g1, g2⟩ := this
  exact ⟨t, d, id, List.mem_append_left _ g1, g2⟩

/-- The hypotheses of `C86_flood`, and by it those of C85: one datagram, three connections. -/
example : ∃ (tr : List (Nat × Label)) (st : Sys) (ks : List U160), Sys.Run toy .debug Sys.init tr st ∧ ks.Nodup ∧ ks.length = 3 ∧ ∀ key ∈ ks, (st.sock.streams key).isSome := by
  have hi : ([7, 8, 9] : List U64).Nodup := by decide
  have hd : ∀ i ∈ ([7, 8, 9] : List U64), i.toNat ≠ beNat [0, 0, 0, 0, 0, 0, 0, 5] := by
    simp only [List.forall_mem_cons]
    exact ⟨by decide, by decide, by decide, fun _ h => by cases h⟩
  have h := C86_flood toy toy_laws .debug exOpening 1 1 _ _ exOpening_opens _ hi hd
  revert h
  generalize Sock.run toy .debug Sock.bind _ = q
  intro ⟨tr, st, ks, h1, _, h2, h3, h4⟩
  exact ⟨tr, st, ks, h1, h2, h3, h4⟩

end QuicSea
