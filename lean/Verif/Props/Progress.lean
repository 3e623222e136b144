import Verif.Props.Concurrent
import Verif.Props.PacketNumber
/-
C91: no call goes on for ever by itself.
-/
namespace QuicSea
variable {P : Prims} {bp : Profile}

/-- An infinite execution: which thread moves at each time, and what it does. -/
def Forever (P : Prims) (bp : Profile) (σ : Nat → Sys) (who : Nat → Nat) (lab : Nat → Label) : Prop :=
  ∀ n, Sys.Step P bp (σ n) (who n) (lab n) (σ (n + 1))

/-- The thread finds that the random id it has drawn for a new connection is taken (src/routing.rs:176). -/
def FindsTaken (s : Sys) (t : Nat) : Prop := ∃ x key y, s.pc t = .aContains x key ∧ s.sock.streams key = some y

/-- The thread is in a call other than `accept`. -/
def InShortCall : Pc → Prop
  | .pParse _ | .pLock .. | .pGet .. | .pConnLock .. | .pDecode .. | .pLogLock _ | .pFlag _ | .pPrint .. => True
  | .dLock _ | .dRemove _ | .sLock _ | .sSet _ => True
  | _ => False

/-- How many steps a thread takes at most until its call ends, or it receives a datagram or finds an id taken. -/
def callTime : Pc → Nat
  | .idle | .dead => 0
  | .pPrint .. => 1 | .pFlag _ => 2 | .pLogLock _ => 3 | .pDecode .. => 4 | .pConnLock .. => 5 | .pGet .. => 6 | .pLock .. => 7 | .pParse _ => 8
  | .dRemove _ => 1 | .dLock _ => 2 | .sSet _ => 1 | .sLock _ => 2
  | .aRecv => 1 | .aLock => 2 | .aSend .. => 3 | .aSendLock .. => 4 | .aRoute _ => 5 | .aUnwrap _ => 1
  | .aTodo _ => 1 | .aGet _ => 2 | .aGetLock _ => 3 | .aUnlock _ => 4 | .aInsert .. => 5 | .aSetScid .. => 6 | .aScidLock .. => 7
  | .aContains .. => 8 | .aRegLock .. => 9 | .aRandom _ => 10 | .aNew _ => 11 | .aCheck .. => 12 | .aCheckLock .. => 13 | .aParse _ => 14
  | .aPrint .. => 15 | .aFlag _ => 16 | .aLog _ => 17

theorem callTime_le (p : Pc) : callTime p ≤ 17 := by cases p <;> simp [callTime]
theorem callTime_short {p : Pc} (h : InShortCall p) : callTime p ≤ 8 := by cases p <;> simp_all [callTime, InShortCall]

theorem act_callTime {p k l p' k'} (h : Act P bp p k l p' k') (hi : p ≠ .idle) (hr : ∀ d, l ≠ .received d)
    (ht : ∀ s key y, p = .aContains s key → k.streams key ≠ some y) : callTime p' < callTime p := by
  cases h <;> simp_all [callTime]
theorem wants_callTime {p p' : Pc} {l m} (h : p.wants = some (l, m, p')) : callTime p' < callTime p := by
  cases p <;> simp [Pc.wants] at h <;> obtain ⟨-, -, rfl⟩ := h <;> simp [callTime]

/-- Each step of a thread in a call brings it nearer to the end of the call, unless it receives a datagram or finds an id taken. -/
theorem step_callTime {s t l s'} (hs : Sys.Step P bp s t l s') (hi : s.pc t ≠ .idle) (hd : s.pc t ≠ .dead) (hr : ∀ d, l ≠ .received d)
    (ht : ¬ FindsTaken s t) : callTime (s'.pc t) < callTime (s.pc t) := by
  have h0 : 0 < callTime (s.pc t) := by
    generalize s.pc t = p at hi hd
    cases p <;> simp_all [callTime]
  cases hs with
  | act _ p k ha =>
    rw [show ({ s.goto t p with sock := k } : Sys).pc t = p from by simp [Sys.goto]]
    exact act_callTime ha hi hr fun x key y e h => ht ⟨x, key, y, e, h⟩
  | acquire _ m p hw =>
    rw [show (s.goto t p).pc t = p from by simp [Sys.goto]]
    exact wants_callTime hw
  | poisoned _ m p hw => simpa [Sys.kill, Sys.goto, callTime] using h0
  | panic h => simpa [Sys.kill, Sys.goto, callTime] using h0
theorem step_others {s t l s'} (hs : Sys.Step P bp s t l s') {t'} (h : t' ≠ t) : s'.pc t' = s.pc t' := (C54_released hs).1 t' h

/-- C91: in every infinite execution, a thread that keeps moving and never ends its call receives datagrams or finds ids taken again and again.
So there is no other loop a call can be caught in, whatever other threads do. -/
theorem C91_no_livelock {σ who lab} (hσ : Forever P bp σ who lab) (t n : Nat) (hc : ∀ m ≥ n, (σ m).pc t ≠ .idle ∧ (σ m).pc t ≠ .dead)
    (hm : ∀ m, ∃ m' ≥ m, who m' = t) :
    ∀ m, ∃ m' ≥ m, who m' = t ∧ ((∃ d, lab m' = .received d) ∨ FindsTaken (σ m') t) := by
  intro m
  refine Classical.byContradiction fun hno => ?_
  have hstep : ∀ i ≥ max n m, who i = t → callTime ((σ (i + 1)).pc t) < callTime ((σ i).pc t) := by
    intro i hi hw
    have hs := hσ i
    rw [hw] at hs
    have h1 := hc i (by omega)
    refine step_callTime hs h1.1 h1.2 ?_ ?_
    · intro d e; exact hno ⟨i, by omega, hw, .inl ⟨d, e⟩⟩
    · intro e; exact hno ⟨i, by omega, hw, .inr e⟩
  have hmono : ∀ j i, max n m ≤ i → callTime ((σ (i + j)).pc t) ≤ callTime ((σ i).pc t) := by
    intro j
    induction j with
    | zero => intro i _; exact Nat.le_refl _
    | succ j ih =>
      intro i hi
      refine Nat.le_trans ?_ (ih i hi)
      by_cases hw : who (i + j) = t
      · exact Nat.le_of_lt (hstep (i + j) (by omega) hw)
      · exact Nat.le_of_eq (congrArg callTime (step_others (hσ (i + j)) (Ne.symm hw)))
  have key : ∀ k, ∃ i ≥ max n m, callTime ((σ i).pc t) + k ≤ 17 := by
    intro k
    induction k with
    | zero => exact ⟨_, Nat.le_refl _, callTime_le _⟩
    | succ k ih =>
      obtain ⟨i, hi, h⟩ := ih
      obtain ⟨i', hi', hw⟩ := hm i
      have h1 := hmono (i' - i) i hi
      rw [Nat.add_sub_cancel' hi'] at h1
      have h2 := hstep i' (by omega) hw
      exact ⟨i' + 1, by omega, by omega⟩
  obtain ⟨i, _, h⟩ := key 18
  omega

/-- The number of steps of a thread in a run. -/
def own (t : Nat) : List (Nat × Label) → Nat
  | [] => 0
  | (t', _) :: tr => (if t' = t then 1 else 0) + own t tr

theorem act_short {p k l p' k'} (h : Act P bp p k l p' k') (hp : InShortCall p) : InShortCall p' ∨ p' = .idle := by
  cases h <;> simp_all [InShortCall]
theorem wants_short {p p' : Pc} {l m} (h : p.wants = some (l, m, p')) (hp : InShortCall p) : InShortCall p' := by
  cases p <;> simp [Pc.wants] at h <;> obtain ⟨-, -, rfl⟩ := h <;> simp_all [InShortCall]
theorem short_step {s t l s'} (hs : Sys.Step P bp s t l s') (hp : InShortCall (s.pc t)) :
    (InShortCall (s'.pc t) ∧ callTime (s'.pc t) < callTime (s.pc t)) ∨ s'.pc t = .idle ∨ s'.pc t = .dead := by
  have hlt : callTime (s'.pc t) < callTime (s.pc t) := by
    refine step_callTime hs ?_ ?_ ?_ ?_
    · intro e; rw [e] at hp; exact hp
    · intro e; rw [e] at hp; exact hp
    · intro d e
      subst e
      cases hs with
      | act _ p k ha =>
        generalize s.pc t = q at ha hp
        cases ha
        exact hp
    · rintro ⟨x, key, y, e, -⟩; rw [e] at hp; exact hp
  have : InShortCall (s'.pc t) ∨ s'.pc t = .idle ∨ s'.pc t = .dead := by
    cases hs with
    | act _ p k ha =>
      rw [show ({ s.goto t p with sock := k } : Sys).pc t = p from by simp [Sys.goto]]
      rcases act_short ha hp with h | h
      · exact .inl h
      · exact .inr (.inl h)
    | acquire _ m p hw =>
      rw [show (s.goto t p).pc t = p from by simp [Sys.goto]]
      exact .inl (wants_short hw hp)
    | poisoned _ m p hw => exact .inr (.inr (by simp [Sys.kill, Sys.goto]))
    | panic h => exact .inr (.inr (by simp [Sys.kill, Sys.goto]))
  rcases this with h | h
  · exact .inl ⟨h, hlt⟩
  · exact .inr h

theorem own_append (t : Nat) (a b : List (Nat × Label)) : own t (a ++ b) = own t a + own t b := by
  induction a with
  | nil => simp [own]
  | cons x a ih => obtain ⟨t', l⟩ := x; simp [own, ih, Nat.add_assoc]

/-- C91: a call of `packets_from_datagram`, `drop_connection` or `set_log_traffic` takes at most eight steps, whatever other threads do in between:
a thread that was in such a call, and has moved, was at the end of it after at most eight steps of its own, or is still in it after fewer. -/
theorem C91_short_calls_end {s tr s'} (hr : Sys.Run P bp s tr s') (t : Nat) (hp : InShortCall (s.pc t)) :
    (InShortCall (s'.pc t) ∧ own t tr < 8) ∨
    ∃ tr1 tr2 s1, tr = tr1 ++ tr2 ∧ Sys.Run P bp s tr1 s1 ∧ Sys.Run P bp s1 tr2 s' ∧ own t tr1 ≤ 8 ∧ (s1.pc t = .idle ∨ s1.pc t = .dead) := by
  have key : (InShortCall (s'.pc t) ∧ own t tr + callTime (s'.pc t) ≤ callTime (s.pc t)) ∨
      ∃ tr1 tr2 s1, tr = tr1 ++ tr2 ∧ Sys.Run P bp s tr1 s1 ∧ Sys.Run P bp s1 tr2 s' ∧ own t tr1 ≤ 8 ∧ (s1.pc t = .idle ∨ s1.pc t = .dead) := by
    induction hr with
    | nil => exact .inl ⟨hp, by simp [own]⟩
    | @snoc tr s' t' l s'' hr hs ih =>
      rcases ih with ⟨h1, h2⟩ | ⟨tr1, tr2, s1, e, r1, r2, h⟩
      · by_cases ht : t = t'
        · subst ht
          rcases short_step hs h1 with ⟨h3, h4⟩ | h3
          · exact .inl ⟨h3, by simp [own_append, own]; omega⟩
          · refine .inr ⟨tr ++ [(t, l)], [], s'', by simp, .snoc hr hs, .nil _, ?_, h3⟩
            have := callTime_short hp
            have : 0 < callTime (s'.pc t) := by generalize s'.pc t = q at h1; cases q <;> simp_all [callTime, InShortCall]
            simp [own_append, own]
            omega
        · refine .inl ⟨by rw [step_others hs ht]; exact h1, ?_⟩
          rw [step_others hs ht]
          simpa [own_append, own, Ne.symm ht] using h2
      · exact .inr ⟨tr1, tr2 ++ [(t', l)], s1, by rw [e, List.append_assoc], r1, .snoc r2 hs, h⟩
  rcases key with ⟨h1, h2⟩ | h
  · have := callTime_short hp
    have : 0 < callTime (s'.pc t) := by generalize s'.pc t = q at h1; cases q <;> simp_all [callTime, InShortCall]
    exact .inl ⟨h1, by omega⟩
  · exact .inr h

/-- The exception for taken ids is a real one: a thread that is about to draw an id can go round for ever when the numbers it draws are ids of
connections. -/
theorem C91_taken_forever (s : Sys) (t : Nat) (x : StreamState) (v : U64) (y : StreamState) (hp : s.pc t = .aRandom x)
    (hy : s.sock.streams (.ofU64 v) = some y) (hf : s.Free .streams .write) (hn : s.poisoned .streams = false) :
    ∃ σ lab, Forever P bp σ (fun _ => t) lab ∧ σ 0 = s ∧ ∀ n, (σ n).pc t ≠ .idle ∧ (σ n).pc t ≠ .dead ∧ ∀ d, lab n ≠ .received d := by
  let f : Nat → Pc := fun n => if n % 3 = 0 then .aRandom x else if n % 3 = 1 then .aRegLock x (.ofU64 v) else .aContains x (.ofU64 v)
  have hf0 : ∀ n, n % 3 = 0 → f n = .aRandom x := fun n h => by simp [f, h]
  have hf1 : ∀ n, n % 3 = 1 → f n = .aRegLock x (.ofU64 v) := fun n h => by simp [f, h]
  have hf2 : ∀ n, n % 3 = 2 → f n = .aContains x (.ofU64 v) := fun n h => by simp [f, h]
  have hgg : ∀ p q, (s.goto t p).goto t q = s.goto t q := by
    intro p q
    simp only [Sys.goto, Sys.mk.injEq, true_and]
    funext t'
    split <;> simp_all
  have hpc : ∀ p, (s.goto t p).pc t = p := fun p => by simp [Sys.goto]
  refine ⟨fun n => s.goto t (f n), fun _ => .tau, ?_, ?_, ?_⟩
  · intro n
    have h3 : n % 3 = 0 ∨ n % 3 = 1 ∨ n % 3 = 2 := by omega
    dsimp only
    rcases h3 with h | h | h
    · rw [hf0 n h, hf1 (n + 1) (by omega), ← hgg (.aRandom x) (.aRegLock x (.ofU64 v))]
      exact Sys.Step.act (P := P) (bp := bp) (s.goto t (.aRandom x)) t .tau _ s.sock (by rw [hpc]; exact .random s.sock x v)
    · rw [hf1 n h, hf2 (n + 1) (by omega), ← hgg (.aRegLock x (.ofU64 v)) (.aContains x (.ofU64 v))]
      refine Sys.Step.acquire (P := P) (bp := bp) _ t .streams .write _ (by rw [hpc]; rfl) ?_ hn
      intro t' m' hh
      refine hf t' m' ?_
      by_cases e : t' = t
      · subst e; rw [hpc] at hh; simp [Pc.held] at hh
      · simpa [Sys.goto, e] using hh
    · rw [hf2 n h, hf0 (n + 1) (by omega), ← hgg (.aContains x (.ofU64 v)) (.aRandom x)]
      exact Sys.Step.act (P := P) (bp := bp) (s.goto t (.aContains x (.ofU64 v))) t .tau _ s.sock (by rw [hpc]; exact .taken s.sock x _ y hy)
  · show s.goto t (f 0) = s
    rw [hf0 0 rfl]
    simp only [Sys.goto]
    cases s
    simp only [Sys.mk.injEq, true_and]
    funext t'
    split
    · subst t'; exact hp.symm
    · rfl
  · intro n
    dsimp only
    rw [hpc]
    have h3 : n % 3 = 0 ∨ n % 3 = 1 ∨ n % 3 = 2 := by omega
    rcases h3 with h | h | h
    · rw [hf0 n h]; simp
    · rw [hf1 n h]; simp
    · rw [hf2 n h]; simp

/-- A socket with one connection under the id 5, thread 0 about to draw an id for another and thread 1 about to drop one. -/
def exLoop : Sys :=
  { sock := { Sock.bind with streams := tableInsert (fun _ => none) (.ofU64 5) (.fromConnection exConn) }
    poisoned := fun _ => false
    pc := fun t => if t = 0 then .aRandom (.fromConnection exConn) else if t = 1 then .dLock (.ofU64 5) else .idle }
theorem exLoop_free : exLoop.Free .streams .write := by
  intro t m h
  by_cases h0 : t = 0
  · subst h0; simp [exLoop, Pc.held] at h
  · by_cases h1 : t = 1
    · subst h1; simp [exLoop, Pc.held] at h
    · simp [exLoop, h0, h1, Pc.held] at h
/-- The hypotheses of `C91_taken_forever` and of `C91_no_livelock` hold of it. -/
example : ∃ σ who lab, Forever Spec.toy .debug σ who lab ∧ (∀ m ≥ 0, (σ m).pc 0 ≠ .idle ∧ (σ m).pc 0 ≠ .dead) ∧ ∀ m, ∃ m' ≥ m, who m' = 0 := by
  obtain ⟨σ, lab, h1, -, h3⟩ := C91_taken_forever (P := Spec.toy) (bp := .debug) exLoop 0 (.fromConnection exConn) 5 (.fromConnection exConn) rfl
    (by simp [exLoop, tableInsert]) exLoop_free rfl
  exact ⟨σ, _, lab, h1, fun m _ => ⟨(h3 m).1, (h3 m).2.1⟩, fun m => ⟨m, Nat.le_refl _, rfl⟩⟩
/-- Thread 1 drops the connection in two steps. -/
example : ∃ s', Sys.Run Spec.toy .debug exLoop [(1, .tau), (1, .removed (.ofU64 5))] s' ∧ InShortCall (exLoop.pc 1) ∧ s'.pc 1 = .idle := by
  refine ⟨_, .snoc (.snoc (.nil _) (.acquire exLoop 1 .streams .write _ rfl exLoop_free rfl)) (.act _ 1 _ .idle _ (.remove _ _)), trivial, ?_⟩
  simp [Sys.goto]

end QuicSea
