import Verif.Model.Anywhere
import Verif.Props.Random
/-
C133: what a panic does to the other threads, wherever it happens.
-/
namespace QuicSea
open Spec
variable {P : Prims} {bp : Profile} {F : Pc → Prop}

/-- The invariant of `Verif.Proofs.Concurrent` without the claim that nothing is poisoned; nobody holds what is. -/
structure InvK (P : Prims) (s : Sys) : Prop where
  excl : ∀ t t' l m m', t ≠ t' → (l, m) ∈ (s.pc t).held → (l, m') ∈ (s.pc t').held → m = .read ∧ m' = .read
  pcOk : ∀ t, PcOk P s.sock (s.pc t)
  table : ∀ key x, s.sock.streams key = some x → RegisteredAs P key x.connection
  left : ∀ l, s.poisoned l = true → ∀ t m, (l, m) ∉ (s.pc t).held

/-- The same threads and table with all locks whole. -/
def Sys.whole (s : Sys) : Sys := { s with poisoned := fun _ => false }

theorem InvK.whole {s : Sys} (hi : InvK P s) : Inv P s.whole := ⟨hi.excl, hi.pcOk, hi.table, fun _ => rfl⟩

theorem kill_pc (s : Sys) (t t' : Nat) : (s.kill t).pc t' = if t' = t then .dead else s.pc t' := rfl

theorem kill_held {s : Sys} {t t' : Nat} {x} (h : x ∈ ((s.kill t).pc t').held) : t' ≠ t ∧ x ∈ (s.pc t').held := by
  rw [kill_pc] at h
  split at h
  · cases h
  · exact ⟨‹_›, h⟩

theorem invK_init : InvK P Sys.init where
  excl := by intro t t' l m m' _ h; cases h
  pcOk := fun _ => trivial
  table := by intro key x h; cases h
  left := by intro l h; cases h

theorem invK_kill {s : Sys} (hi : InvK P s) (t : Nat) : InvK P (s.kill t) where
  excl := fun t1 t2 l m m' hne h1 h2 => hi.excl t1 t2 l m m' hne (kill_held h1).2 (kill_held h2).2
  pcOk := fun t1 => by
    rw [kill_pc]
    split
    · trivial
    · exact hi.pcOk t1
  table := hi.table
  left := by
    intro l hp t1 m h
    obtain ⟨hne, h⟩ := kill_held h
    have hp : (s.poisoned l || decide ((l, Mode.write) ∈ (s.pc t).held)) = true := hp
    rcases Bool.or_eq_true_iff.mp hp with hp | hp
    · exact hi.left l hp t1 m h
    · cases (hi.excl t1 t l m .write hne h (of_decide_eq_true hp)).2

theorem invK_step {s : Sys} {t l s'} (hi : InvK P s) (h : Sys.StepK F P bp s t l s') : InvK P s' := by
  cases h with
  | die _ _ => exact invK_kill hi t
  | step h =>
    cases h with
    | act _ p k ha =>
      have hw := inv_step hi.whole (Sys.Step.act s.whole t l p k ha)
      refine ⟨hw.excl, hw.pcOk, hw.table, fun l' hp t1 m h => ?_⟩
      have h : (l', m) ∈ (if t1 = t then p else s.pc t1).held := h
      split at h
      · rename_i e; rw [e] at *; exact hi.left l' hp t m (act_held ha h)
      · exact hi.left l' hp t1 m h
    | acquire l m p hw hf hp =>
      have hv := inv_step (bp := bp) hi.whole (Sys.Step.acquire s.whole t l m p hw hf rfl)
      refine ⟨hv.excl, hv.pcOk, hv.table, fun l' hp' t1 m' h => ?_⟩
      have h : (l', m') ∈ (if t1 = t then p else s.pc t1).held := h
      have hp' : s.poisoned l' = true := hp'
      split at h
      · rcases (wants_held hw _).mp h with g | g
        · exact hi.left l' hp' t m' g
        · cases g; rw [hp] at hp'; cases hp'
      · exact hi.left l' hp' t1 m' h
    | poisoned l m p hw hf hp => exact invK_kill hi t
    | panic h => exact invK_kill hi t

theorem invK_reachable {tr s} (h : Sys.RunK F P bp Sys.init tr s) : InvK P s := by
  induction h with
  | nil => exact invK_init
  | snoc _ hs ih => exact invK_step ih hs

/-- Which locks are poisoned after a step: those that were, and those a thread held for writing that panics in it. -/
theorem C133_step {s : Sys} {t l s'} (h : Sys.StepK F P bp s t l s') (lk : Lock) :
    s'.poisoned lk = true ↔ s.poisoned lk = true ∨ l = .panicked ∧ (lk, Mode.write) ∈ (s.pc t).held := by
  have hk : (s.kill t).poisoned lk = true ↔ s.poisoned lk = true ∨ (lk, Mode.write) ∈ (s.pc t).held := by
    show (s.poisoned lk || decide _) = true ↔ _
    rw [Bool.or_eq_true_iff, decide_eq_true_eq]
  cases h with
  | die _ _ => rw [hk]; simp
  | step h =>
    cases h with
    | act _ p k ha =>
      refine ⟨.inl, fun h => h.resolve_right ?_⟩
      rintro ⟨rfl, -⟩
      generalize s.pc t = q at ha
      cases ha
    | acquire l m p hw hf hp => exact ⟨.inl, fun h => h.resolve_right (by simp)⟩
    | poisoned l m p hw hf hp => rw [hk]; simp
    | panic h => rw [hk]; simp

/-- Poison stays. -/
theorem poison_stays {s tr s'} (h : Sys.RunK F P bp s tr s') {lk : Lock} (hp : s.poisoned lk = true) : s'.poisoned lk = true := by
  induction h with
  | nil => exact hp
  | snoc _ hs ih => exact (C133_step hs lk).mpr (.inl ih)

/-- **C133, exactly**: a lock is poisoned if and only if at some time in the run a thread panicked that held it for writing. -/
theorem C133_poisoned_exact {tr s} (h : Sys.RunK F P bp Sys.init tr s) (lk : Lock) :
    s.poisoned lk = true ↔ ∃ a b t s1 s2, tr = a ++ (t, .panicked) :: b ∧ Sys.RunK F P bp Sys.init a s1 ∧ Sys.StepK F P bp s1 t .panicked s2 ∧
      Sys.RunK F P bp s2 b s ∧ (lk, Mode.write) ∈ (s1.pc t).held := by
  constructor
  · intro hp
    induction h with
    | nil => cases hp
    | @snoc tr s1 t l s2 hr hs ih =>
      rcases (C133_step hs lk).mp hp with hp | ⟨rfl, hw⟩
      · obtain ⟨a, b, t', s3, s4, rfl, h1, h2, h3, h4⟩ := ih hp
        exact ⟨a, b ++ [(t, l)], t', s3, s4, by simp, h1, h2, h3.snoc hs, h4⟩
      · exact ⟨tr, [], t, s1, s2, rfl, hr, hs, .nil _, hw⟩
  · rintro ⟨a, b, t, s1, s2, -, -, h2, h3, h4⟩
    exact poison_stays h3 ((C133_step h2 lk).mpr (.inr ⟨rfl, h4⟩))

/-- The points at which a panic poisons something: while the socket is held for receiving, while the table is held for registering or removing, and while the
log flag is being set. -/
theorem C133_points (p : Pc) : (∃ l, (l, Mode.write) ∈ p.held) ↔ p = .aRecv ∨ (∃ d, p = .aLog d) ∨ (∃ d, p = .aFlag d) ∨ (∃ d b, p = .aPrint d b) ∨
    (∃ x key, p = .aContains x key) ∨ (∃ x key, p = .aScidLock x key) ∨ (∃ x key, p = .aSetScid x key) ∨ (∃ x key, p = .aInsert x key) ∨
    (∃ key, p = .aUnlock key) ∨ (∃ key, p = .dRemove key) ∨ ∃ b, p = .sSet b := by
  cases p <;> simp [Pc.held]

/-- Something can be done at every point but those of the dead; a thread that waits for a lock is waiting for one that can go on. -/
theorem progressK {s : Sys} (hi : InvK P s) (t : Nat) (l : Lock) (m : Mode) (p : Pc) (hw : (s.pc t).wants = some (l, m, p)) :
    ∃ t' e s', Sys.Step P bp s t' e s' ∧ (t' = t ∨ ∃ l' m', (l', m') ∈ (s.pc t').held ∧ l.rank ≤ l'.rank) := by
  have : ∀ n t l m p, (s.pc t).wants = some (l, m, p) → 4 ≤ l.rank + n →
      ∃ t' e s', Sys.Step P bp s t' e s' ∧ (t' = t ∨ ∃ l' m', (l', m') ∈ (s.pc t').held ∧ l.rank ≤ l'.rank) := by
    intro n
    induction n with
    | zero => intro t l m p _ h; cases l <;> simp [Lock.rank] at h
    | succ n ih =>
      intro t l m p hw hn
      by_cases hf : s.Free l m
      · cases hp : s.poisoned l with
        | false => exact ⟨t, _, _, .acquire s t l m p hw hf hp, .inl rfl⟩
        | true => exact ⟨t, _, _, .poisoned s t l m p hw hf hp, .inl rfl⟩
      · have : ∃ t' m', (l, m') ∈ (s.pc t').held := Classical.byContradiction fun h =>
          hf fun t' m' h' => absurd ⟨t', m', h'⟩ h
        obtain ⟨t', m', hh⟩ := this
        cases hw' : (s.pc t').wants with
        | none =>
          have hd : s.pc t' ≠ .dead := fun e => by rw [e] at hh; cases hh
          rcases pc_enabled (bp := bp) s.sock (s.pc t') (hi.pcOk t') hw' hd with ⟨e, q, k, h⟩ | h
          · exact ⟨t', _, _, .act s t' e q k h, .inr ⟨l, m', hh, Nat.le_refl _⟩⟩
          · exact ⟨t', _, _, .panic s t' h, .inr ⟨l, m', hh, Nat.le_refl _⟩⟩
        | some w =>
          obtain ⟨l2, m2, p2⟩ := w
          have hlt := wants_rank hw' hh
          obtain ⟨t'', e, s', hs, h⟩ := ih t' l2 m2 p2 hw' (by omega)
          refine ⟨t'', e, s', hs, .inr ?_⟩
          rcases h with rfl | ⟨l3, m3, h3, h4⟩
          · exact ⟨l, m', hh, Nat.le_refl _⟩
          · exact ⟨l3, m3, h3, by omega⟩
  exact this 4 t l m p hw (by omega)

/-- C133, full statement: whatever panics, at whatever points of the calls and however often: locks exclude, a lock is poisoned exactly if a thread panicked that
held it for writing, a thread that waits for a lock is waiting for one that can go on, every connection in the table answers to the id it is under,
and a panic changes neither the table nor the log nor any other thread. -/
def C133For (P : Prims) : Prop := ∀ (bp : Profile) (tr : List (Nat × Label)) (s : Sys), Sys.RunK (fun _ => True) P bp Sys.init tr s →
  (∀ t t' l m, (l, Mode.write) ∈ (s.pc t).held → (l, m) ∈ (s.pc t').held → t = t') ∧
  (∀ l, s.poisoned l = true ↔ ∃ a b t s1 s2, tr = a ++ (t, .panicked) :: b ∧ Sys.RunK (fun _ => True) P bp Sys.init a s1 ∧
    Sys.StepK (fun _ => True) P bp s1 t .panicked s2 ∧ Sys.RunK (fun _ => True) P bp s2 b s ∧ (l, Mode.write) ∈ (s1.pc t).held) ∧
  (∀ t l m p, (s.pc t).wants = some (l, m, p) → ∃ t' e s', Sys.Step P bp s t' e s' ∧ (t' = t ∨ ∃ l' m', (l', m') ∈ (s.pc t').held)) ∧
  (∀ key x, s.sock.streams key = some x → x.connection.scid = some (key, 8)) ∧
  ∀ t s', Sys.StepK (fun _ => True) P bp s t .panicked s' → s'.sock = s.sock ∧ s'.pc t = .dead ∧ ∀ t', t' ≠ t → s'.pc t' = s.pc t'
/-- The claim, for all algorithms that obey the laws. -/
def C133Statement : Prop := ∀ P, PrimLaws P → C133For P

theorem C133_all : C133Statement := by
  intro P _ bp tr s hr
  have hi := invK_reachable hr
  refine ⟨fun t t' l m h h' => Classical.byContradiction fun hne => (by cases (hi.excl t t' l .write m hne h h').1), fun l => C133_poisoned_exact hr l, ?_, ?_, ?_⟩
  · intro t l m p hw
    obtain ⟨t', e, s', hs, h⟩ := progressK (bp := bp) hi t l m p hw
    exact ⟨t', e, s', hs, h.imp id fun ⟨l', m', h, _⟩ => ⟨l', m', h⟩⟩
  · intro key x hx
    obtain ⟨-, c, -, he⟩ := hi.table key x hx
    rw [he]; rfl
  · intro t s' hs
    have hk : (s.kill t).sock = s.sock ∧ (s.kill t).pc t = .dead ∧ ∀ t', t' ≠ t → (s.kill t).pc t' = s.pc t' :=
      ⟨rfl, by simp [Sys.kill, Sys.goto], fun t' h => by simp [Sys.kill, Sys.goto, h]⟩
    generalize hl : Label.panicked = l at hs
    cases hs with
    | die _ _ => exact hk
    | step h =>
      cases h with
      | act _ p k ha =>
        subst hl
        generalize s.pc t = q at ha
        cases ha
      | acquire => cases hl
      | poisoned => exact hk
      | panic => exact hk

/-- C133: panics at points where nothing is held for writing harm nobody: no lock is ever poisoned. -/
theorem C133_harmless (hF : ∀ p, F p → ∀ l, (l, Mode.write) ∉ p.held) {tr s} (h : Sys.RunK F P bp Sys.init tr s) : Inv P s := by
  induction h with
  | nil => exact inv_init
  | snoc _ hs ih =>
    cases hs with
    | step h => exact inv_step ih h
    | die hf _ => exact inv_kill ih _ (hF _ hf)

/-- C133: and panics where something is: from then on every thread that comes to lock it panics, as soon as it runs, and none waits for it. -/
theorem C133_harmful {tr s} (h : Sys.RunK F P bp Sys.init tr s) (lk : Lock) (hp : s.poisoned lk = true) {tr' s'} (h' : Sys.RunK F P bp s tr' s')
    (t : Nat) (m : Mode) (p : Pc) (hw : (s'.pc t).wants = some (lk, m, p)) :
    (∀ l s'', Sys.StepK F P bp s' t l s'' → l = .panicked ∧ s''.pc t = .dead) ∧ ∃ s'', Sys.StepK F P bp s' t .panicked s'' := by
  have hp' := poison_stays h' hp
  have hi : InvK P s' := by
    have hi := invK_reachable h
    clear hp hp' hw
    induction h' with
    | nil => exact hi
    | snoc _ hs ih => exact invK_step ih hs
  refine ⟨fun l s'' hs => ?_, _, .step (.poisoned s' t lk m p hw (fun t1 m1 h1 => absurd h1 (hi.left lk hp' t1 m1)) hp')⟩
  have hk : (s'.kill t).pc t = .dead := by simp [Sys.kill, Sys.goto]
  cases hs with
  | die _ _ => exact ⟨rfl, hk⟩
  | step h =>
    cases h with
    | act _ q k ha =>
      revert ha hw
      generalize s'.pc t = r
      intro hw ha
      cases ha <;> cases hw
    | acquire l2 m2 p2 hw2 hf hq =>
      rw [hw] at hw2
      cases hw2
      rw [hp'] at hq; cases hq
    | poisoned => exact ⟨rfl, hk⟩
    | panic => exact ⟨rfl, hk⟩

/-- C133: the lock of a connection is poisoned only together with the table, and then no thread is about to lock any connection, nor holds the table or any connection. -/
theorem C133_conn {tr s} (h : Sys.RunK F P bp Sys.init tr s) (key : U160) (hp : s.poisoned (.conn key) = true) :
    s.poisoned .streams = true ∧ ∀ t, (∀ key' m p, (s.pc t).wants ≠ some (.conn key', m, p)) ∧ (∀ m, (Lock.streams, m) ∉ (s.pc t).held) ∧
      ∀ key' m, (Lock.conn key', m) ∉ (s.pc t).held := by
  have hs : s.poisoned .streams = true := by
    obtain ⟨a, b, t, s1, s2, -, -, h2, h3, h4⟩ := (C133_poisoned_exact h _).mp hp
    refine poison_stays h3 ((C133_step h2 _).mpr (.inr ⟨rfl, ?_⟩))
    revert h4
    generalize s1.pc t = p
    cases p <;> simp [Pc.held]
  have hl := (invK_reachable h).left .streams hs
  refine ⟨hs, fun t => ⟨fun key' m p hw => ?_, hl t, fun key' m hh => ?_⟩⟩
  · have := hl t
    revert this hw
    generalize s.pc t = q
    cases q <;> simp [Pc.wants, Pc.held]
  · have := hl t
    revert this hh
    generalize s.pc t = q
    cases q <;> simp [Pc.held]

/-- Runs without further panics are among these. -/
theorem C133_none {s0 tr s} (h : Sys.Run P bp s0 tr s) : Sys.RunK F P bp s0 tr s := by
  induction h with
  | nil => exact .nil _
  | snoc _ hs ih => exact .snoc ih (.step hs)

/-- A thread panics in `recv_from`: the socket is poisoned, and nothing else; a thread that calls `accept` then panics, one that drops a connection does not. -/
example : ∃ tr s, Sys.RunK (fun _ => True) toy .debug Sys.init tr s ∧ s.poisoned .socket = true ∧ s.poisoned .streams = false ∧ s.pc 1 = .aLock ∧ s.pc 2 = .dLock .zero := by
  have h1 : Sys.RunK (fun _ => True) toy .debug Sys.init _ _ := .snoc (.nil _) (.step (.act _ 0 .tau .aLock _ (.callAccept _)))
  have h2 := h1.snoc (.step (.acquire _ 0 .socket .write .aRecv rfl (by
    intro t m' h
    have h : (Lock.socket, m') ∈ (if t = 0 then Pc.aLock else Pc.idle).held := h
    split at h <;> cases h) rfl))
  have h3 := h2.snoc (.die (t := 0) trivial (by simp [Sys.goto]))
  have h4 := h3.snoc (.step (.act _ 1 .tau .aLock _ (.callAccept _)))
  have h5 := h4.snoc (.step (.act _ 2 .tau (.dLock .zero) _ (.callDrop _ _)))
  exact ⟨_, _, h5, rfl, rfl, rfl, rfl⟩

end QuicSea
