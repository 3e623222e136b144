import Verif.Props.Anywhere
import Verif.Props.Fairness
/-
C135: calls end, wherever other threads panic.
-/
namespace QuicSea
open Spec
variable {P : Prims} {bp : Profile} {F : Pc → Prop}

/-- An infinite execution where threads at points in `F` may panic. -/
def ForeverK (F : Pc → Prop) (P : Prims) (bp : Profile) (σ : Nat → Sys) (who : Nat → Nat) (lab : Nat → Label) : Prop :=
  ∀ n, Sys.StepK F P bp (σ n) (who n) (lab n) (σ (n + 1))

theorem stepK_others {s t l s'} (hs : Sys.StepK F P bp s t l s') {t'} (h : t' ≠ t) : s'.pc t' = s.pc t' := by
  cases hs with
  | step h' => exact step_others h' h
  | die _ _ => rw [kill_pc, if_neg h]

theorem stepK_held {s t l s'} (hs : Sys.StepK F P bp s t l s') (hh : (s.pc t).held ≠ []) (hr : s.pc t ≠ .aRecv) : holdTime (s'.pc t) < holdTime (s.pc t) := by
  cases hs with
  | step h => exact ((C54_released h).2.2 hh hr).1
  | die _ _ =>
    rw [kill_pc, if_pos rfl]
    generalize s.pc t = q at hh hr
    cases q <;> simp [holdTime, Pc.held] at hh hr ⊢

theorem stepK_callTime {s t l s'} (hs : Sys.StepK F P bp s t l s') (hi : s.pc t ≠ .idle) (hd : s.pc t ≠ .dead) (hr : ∀ d, l ≠ .received d)
    (ht : ¬ FindsTaken s t) : callTime (s'.pc t) < callTime (s.pc t) := by
  cases hs with
  | step h => exact step_callTime h hi hd hr ht
  | die _ _ =>
    rw [kill_pc, if_pos rfl]
    generalize s.pc t = q at hi hd
    cases q <;> simp_all [callTime]

theorem shortK_step {s t l s'} (hs : Sys.StepK F P bp s t l s') (hp : InShortCall (s.pc t)) :
    (InShortCall (s'.pc t) ∧ callTime (s'.pc t) < callTime (s.pc t)) ∨ s'.pc t = .idle ∨ s'.pc t = .dead := by
  cases hs with
  | step h => exact short_step h hp
  | die _ _ => exact .inr (.inr (by rw [kill_pc, if_pos rfl]))

section
variable {σ : Nat → Sys} {who : Nat → Nat} {lab : Nat → Label} {tr0 : List (Nat × Label)}

theorem foreverK_reachable (hσ : ForeverK F P bp σ who lab) (h0 : Sys.RunK F P bp Sys.init tr0 (σ 0)) (n : Nat) : ∃ tr, Sys.RunK F P bp Sys.init tr (σ n) := by
  induction n with
  | zero => exact ⟨tr0, h0⟩
  | succ n ih =>
    obtain ⟨tr, h⟩ := ih
    exact ⟨_, .snoc h (hσ n)⟩

theorem staysK (hσ : ForeverK F P bp σ who lab) (t n j : Nat) (h : ∀ i, n ≤ i → i < n + j → who i ≠ t) : (σ (n + j)).pc t = (σ n).pc t := by
  induction j with
  | zero => rfl
  | succ j ih =>
    rw [← ih fun i h1 h2 => h i h1 (by omega)]
    exact stepK_others (hσ (n + j)) (Ne.symm (h (n + j) (by omega) (by omega)))

theorem first_moveK (hσ : ForeverK F P bp σ who lab) (t n : Nat) (h : ∃ m ≥ n, who m = t) : ∃ m ≥ n, who m = t ∧ (σ m).pc t = (σ n).pc t := by
  obtain ⟨m, hm, hw⟩ := h
  obtain ⟨j, rfl⟩ : ∃ j, m = n + j := ⟨m - n, by omega⟩
  clear hm
  induction j using Nat.strongRecOn with
  | ind j ih =>
    by_cases he : ∃ i, i < j ∧ who (n + i) = t
    · obtain ⟨i, h1, h2⟩ := he
      exact ih i h1 h2
    · refine ⟨n + j, by omega, hw, staysK hσ t n j fun i h1 h2 e => he ⟨i - n, by omega, ?_⟩⟩
      rw [Nat.add_sub_cancel' h1]; exact e

/-- A thread that can do something as long as it stays where it is moves. -/
theorem moves_ableK (hσ : ForeverK F P bp σ who lab) (hf : Fair P bp σ who) (t n : Nat) (h1 : (σ n).pc t ≠ .idle) (h3 : (σ n).pc t ≠ .aRecv)
    (ha : ∀ m ≥ n, (σ m).pc t = (σ n).pc t → ∃ l s', Sys.Step P bp (σ m) t l s') : ∃ m ≥ n, who m = t := by
  refine Classical.byContradiction fun hno => hno (hf.sched t n fun m hm => ?_)
  have he : (σ m).pc t = (σ n).pc t := by
    obtain ⟨j, rfl⟩ : ∃ j, m = n + j := ⟨m - n, by omega⟩
    exact staysK hσ t n j fun i h1 _ e => hno ⟨i, h1, e⟩
  exact ⟨ha m hm he, by rw [he]; exact h1, by rw [he]; exact h3⟩

theorem moves_readyK (hσ : ForeverK F P bp σ who lab) (h0 : Sys.RunK F P bp Sys.init tr0 (σ 0)) (hf : Fair P bp σ who) (t n : Nat)
    (h1 : (σ n).pc t ≠ .idle) (h2 : (σ n).pc t ≠ .dead) (h3 : (σ n).pc t ≠ .aRecv) (hw : ((σ n).pc t).wants = none) : ∃ m ≥ n, who m = t := by
  refine moves_ableK hσ hf t n h1 h3 fun m _ he => ?_
  obtain ⟨tr, hr⟩ := foreverK_reachable hσ h0 m
  rcases pc_enabled (bp := bp) (σ m).sock _ ((invK_reachable hr).pcOk t) (by rw [he]; exact hw) (by rw [he]; exact h2) with ⟨l, p, k, h⟩ | h
  · exact ⟨_, _, .act (σ m) t l p k h⟩
  · exact ⟨_, _, .panic (σ m) t h⟩

theorem moves_waitingK (hσ : ForeverK F P bp σ who lab) (hf : Fair P bp σ who) (t n : Nat) (l : Lock) (md : Mode) (p : Pc)
    (hw : ((σ n).pc t).wants = some (l, md, p)) (hr : ∀ m t', Holds (σ m) t' l → ∃ m' > m, ¬ Holds (σ m') t' l) : ∃ m ≥ n, who m = t := by
  refine Classical.byContradiction fun hno => hf.locks t n l md p (fun m hm => ?_) fun m _ t' => hr m t'
  obtain ⟨j, rfl⟩ : ∃ j, m = n + j := ⟨m - n, by omega⟩
  rw [staysK hσ t n j fun i h1 _ e => hno ⟨i, h1, e⟩]
  exact hw

/-- C135: nobody keeps a lock other than the socket's for ever. -/
theorem C135_released (hσ : ForeverK F P bp σ who lab) (h0 : Sys.RunK F P bp Sys.init tr0 (σ 0)) (hf : Fair P bp σ who) (l : Lock) (hl : l ≠ .socket)
    (m t : Nat) (hh : Holds (σ m) t l) : ∃ m' > m, ¬ Holds (σ m') t l := by
  have key : ∀ k (l : Lock), l ≠ .socket → 4 ≤ l.rank + k → ∀ c t m, holdTime ((σ m).pc t) ≤ c → Holds (σ m) t l →
      ∃ m' > m, ¬ Holds (σ m') t l := by
    intro k
    induction k with
    | zero => intro l _ h; cases l <;> simp [Lock.rank] at h
    | succ k ihk =>
      intro l hl hk c
      induction c with
      | zero =>
        intro t m hc ⟨md, hh⟩
        generalize (σ m).pc t = q at hc hh
        cases q <;> simp [holdTime] at hc <;> simp [Pc.held] at hh
        exact absurd hh.1 hl
      | succ c ihc =>
        intro t m hc hh
        obtain ⟨md, hm⟩ := hh
        have hne : ((σ m).pc t).held ≠ [] := fun e => by rw [e] at hm; cases hm
        have hidle : (σ m).pc t ≠ .idle := fun e => by rw [e] at hm; cases hm
        have hdead : (σ m).pc t ≠ .dead := fun e => by rw [e] at hm; cases hm
        have hrecv : (σ m).pc t ≠ .aRecv := fun e => by
          rw [e] at hm
          simp only [Pc.held, List.mem_cons, List.not_mem_nil, or_false, Prod.mk.injEq] at hm
          exact hl hm.1
        have hmv : ∃ i ≥ m, who i = t := by
          cases hw : ((σ m).pc t).wants with
          | none => exact moves_readyK hσ h0 hf t m hidle hdead hrecv hw
          | some w =>
            obtain ⟨l2, md2, p2⟩ := w
            have hlt := wants_rank hw hm
            have hl2 : l2 ≠ .socket := by rintro rfl; simp [Lock.rank] at hlt
            exact moves_waitingK hσ hf t m l2 md2 p2 hw fun m' t' => ihk l2 hl2 (by omega) _ t' m' (Nat.le_refl _)
        obtain ⟨i, hi, hw, he⟩ := first_moveK hσ t m hmv
        have hs := hσ i
        rw [hw] at hs
        have hr := stepK_held hs (by rw [he]; exact hne) (by rw [he]; exact hrecv)
        rw [he] at hr
        by_cases hh' : Holds (σ (i + 1)) t l
        · obtain ⟨m', h1, h2⟩ := ihc t (i + 1) (by omega) hh'
          exact ⟨m', by omega, h2⟩
        · exact ⟨i + 1, by omega, hh'⟩
  exact key 4 l hl (by omega) _ t m (Nat.le_refl _) hh

theorem movesK (hσ : ForeverK F P bp σ who lab) (h0 : Sys.RunK F P bp Sys.init tr0 (σ 0)) (hf : Fair P bp σ who) (t n : Nat)
    (h1 : (σ n).pc t ≠ .idle) (h2 : (σ n).pc t ≠ .dead) (h3 : (σ n).pc t ≠ .aRecv) (h4 : (σ n).pc t ≠ .aLock) : ∃ m ≥ n, who m = t := by
  cases hw : ((σ n).pc t).wants with
  | none => exact moves_readyK hσ h0 hf t n h1 h2 h3 hw
  | some w =>
    obtain ⟨l, md, p⟩ := w
    have hl : l ≠ .socket := by
      rintro rfl
      generalize (σ n).pc t = q at hw h4
      cases q <;> simp [Pc.wants] at hw h4
    exact moves_waitingK hσ hf t n l md p hw fun m t' => C135_released hσ h0 hf l hl m t'

/-- C135: every call of `packets_from_datagram`, `drop_connection` and `set_log_traffic` ends, by returning or by a panic. -/
theorem C135_short_calls_end (hσ : ForeverK F P bp σ who lab) (h0 : Sys.RunK F P bp Sys.init tr0 (σ 0)) (hf : Fair P bp σ who) (t n : Nat)
    (hp : InShortCall ((σ n).pc t)) : ∃ m > n, (σ m).pc t = .idle ∨ (σ m).pc t = .dead := by
  have key : ∀ c n, callTime ((σ n).pc t) ≤ c → InShortCall ((σ n).pc t) → ∃ m > n, (σ m).pc t = .idle ∨ (σ m).pc t = .dead := by
    intro c
    induction c with
    | zero =>
      intro n hc hp
      generalize (σ n).pc t = q at hc hp
      cases q <;> simp [callTime] at hc <;> exact hp.elim
    | succ c ih =>
      intro n hc hp
      obtain ⟨i, hi, hw, he⟩ := first_moveK hσ t n (movesK hσ h0 hf t n (fun e => by rw [e] at hp; exact hp) (fun e => by rw [e] at hp; exact hp)
        (fun e => by rw [e] at hp; exact hp) (fun e => by rw [e] at hp; exact hp))
      have hs := hσ i
      rw [hw] at hs
      rcases shortK_step hs (by rw [he]; exact hp) with ⟨h1, h2⟩ | h
      · rw [he] at h2
        obtain ⟨m, h3, h4⟩ := ih (i + 1) (by omega) h1
        exact ⟨m, by omega, h4⟩
      · exact ⟨i + 1, by omega, h⟩
  exact key _ n (Nat.le_refl _) hp

/-- C135: every datagram that `accept` receives is dealt with: the call ends, or comes to wait for the next datagram, or finds the id it has drawn taken. -/
theorem C135_accept_goes_on (hσ : ForeverK F P bp σ who lab) (h0 : Sys.RunK F P bp Sys.init tr0 (σ 0)) (hf : Fair P bp σ who) (t n : Nat)
    (hr : (σ n).pc t ≠ .aRecv) : ∃ m ≥ n, (σ m).pc t = .idle ∨ (σ m).pc t = .dead ∨ (σ m).pc t = .aLock ∨ FindsTaken (σ m) t := by
  have key : ∀ c n, callTime ((σ n).pc t) ≤ c → (σ n).pc t ≠ .aRecv →
      ∃ m ≥ n, (σ m).pc t = .idle ∨ (σ m).pc t = .dead ∨ (σ m).pc t = .aLock ∨ FindsTaken (σ m) t := by
    intro c
    induction c with
    | zero =>
      intro n hc _
      refine ⟨n, Nat.le_refl _, ?_⟩
      generalize (σ n).pc t = q at hc
      cases q <;> simp_all [callTime]
    | succ c ih =>
      intro n hc hr
      by_cases h1 : (σ n).pc t = .idle
      · exact ⟨n, Nat.le_refl _, .inl h1⟩
      by_cases h2 : (σ n).pc t = .dead
      · exact ⟨n, Nat.le_refl _, .inr (.inl h2)⟩
      by_cases h3 : (σ n).pc t = .aLock
      · exact ⟨n, Nat.le_refl _, .inr (.inr (.inl h3))⟩
      obtain ⟨i, hi, hw, he⟩ := first_moveK hσ t n (movesK hσ h0 hf t n h1 h2 hr h3)
      have hs := hσ i
      rw [hw] at hs
      by_cases ht : FindsTaken (σ i) t
      · exact ⟨i, hi, .inr (.inr (.inr ht))⟩
      have hnr : ∀ d, lab i ≠ .received d := by
        intro d e
        rw [e] at hs
        cases hs with
        | step h => exact hr (he ▸ received_from h)
      have hlt := stepK_callTime hs (by rw [he]; exact h1) (by rw [he]; exact h2) hnr ht
      rw [he] at hlt
      have hr' : (σ (i + 1)).pc t ≠ .aRecv := by
        intro e
        have : ∀ {s l s'}, Sys.StepK F P bp s t l s' → s'.pc t = .aRecv → s.pc t = .aLock := by
          intro s l s' hs e
          cases hs with
          | die _ _ => simp [Sys.kill, Sys.goto] at e
          | step hs =>
            cases hs with
            | act _ p k ha =>
              simp [Sys.goto] at e; subst e
              generalize s.pc t = q at ha
              cases ha
            | acquire _ m p hw =>
              simp [Sys.goto] at e; subst e
              generalize s.pc t = q at hw
              cases q <;> simp [Pc.wants] at hw
              rfl
            | poisoned => simp [Sys.kill, Sys.goto] at e
            | panic => simp [Sys.kill, Sys.goto] at e
        exact h3 (he ▸ this hs e)
      obtain ⟨m, h4, h5⟩ := ih (i + 1) (by omega) hr'
      exact ⟨m, by omega, h5⟩
  exact key _ n (Nat.le_refl _) hr

theorem poisoned_later (hσ : ForeverK F P bp σ who lab) {n m : Nat} (hm : m ≥ n) {lk : Lock} (hp : (σ n).poisoned lk = true) : (σ m).poisoned lk = true := by
  obtain ⟨j, rfl⟩ : ∃ j, m = n + j := ⟨m - n, by omega⟩
  induction j with
  | zero => exact hp
  | succ j ih => exact (C133_step (hσ (n + j)) lk).mpr (.inl (ih (by omega)))

/-- C135: a thread that comes to lock a poisoned lock dies. -/
theorem C135_poison_kills (hσ : ForeverK F P bp σ who lab) (h0 : Sys.RunK F P bp Sys.init tr0 (σ 0)) (hf : Fair P bp σ who) (t n : Nat) {lk : Lock} {md : Mode} {p : Pc}
    (hp : (σ n).poisoned lk = true) (hw : ((σ n).pc t).wants = some (lk, md, p)) : ∃ m > n, (σ m).pc t = .dead := by
  have h1 : (σ n).pc t ≠ .idle := fun e => by rw [e] at hw; cases hw
  have h3 : (σ n).pc t ≠ .aRecv := fun e => by rw [e] at hw; cases hw
  have hv : ∀ m ≥ n, (σ m).pc t = (σ n).pc t → Sys.Step P bp (σ m) t .panicked ((σ m).kill t) := by
    intro m hm he
    obtain ⟨tr, hr⟩ := foreverK_reachable hσ h0 m
    have hp' := poisoned_later hσ hm hp
    exact .poisoned (σ m) t lk md p (by rw [he]; exact hw) (fun t1 m1 h1 => absurd h1 ((invK_reachable hr).left lk hp' t1 m1)) hp'
  obtain ⟨m, hm, hwho, he⟩ := first_moveK hσ t n (moves_ableK hσ hf t n h1 h3 fun m hm he => ⟨_, _, hv m hm he⟩)
  have hs := hσ m
  rw [hwho] at hs
  obtain ⟨tr, hr⟩ := foreverK_reachable hσ h0 m
  exact ⟨m + 1, by omega, ((C133_harmful hr lk (poisoned_later hσ hm hp) (.nil _) t md p (by rw [he]; exact hw)).1 _ _ hs).2⟩

/-- C135: once the lock of the socket is poisoned no call waits for ever, `accept` included, but that it may find the ids it draws taken. -/
theorem C135_deaf (hσ : ForeverK F P bp σ who lab) (h0 : Sys.RunK F P bp Sys.init tr0 (σ 0)) (hf : Fair P bp σ who) (t n : Nat)
    (hp : (σ n).poisoned .socket = true) : ∃ m ≥ n, (σ m).pc t = .idle ∨ (σ m).pc t = .dead ∨ FindsTaken (σ m) t := by
  obtain ⟨tr, hr⟩ := foreverK_reachable hσ h0 n
  have hn : (σ n).pc t ≠ .aRecv := fun e => (invK_reachable hr).left .socket hp t .write (by rw [e]; simp [Pc.held])
  obtain ⟨m, hm, h | h | h | h⟩ := C135_accept_goes_on hσ h0 hf t n hn
  · exact ⟨m, hm, .inl h⟩
  · exact ⟨m, hm, .inr (.inl h)⟩
  · obtain ⟨m', h1, h2⟩ := C135_poison_kills hσ h0 hf t m (lk := .socket) (md := .write) (p := .aRecv) (poisoned_later hσ hm hp) (by rw [h]; rfl)
    exact ⟨m', by omega, .inr (.inl h2)⟩
  · exact ⟨m, hm, .inr (.inr h)⟩
end

/-- C135, full statement: whatever panics at whatever points, if the scheduler is fair and the locks starve nobody, every call that does not wait for the
network ends, and `accept` does too, or waits for the next datagram, or finds the id it has drawn taken; it waits for no datagram once the lock of the
socket is poisoned. -/
def C135For (P : Prims) : Prop :=
  ∀ (F : Pc → Prop) (bp : Profile) (σ : Nat → Sys) (who : Nat → Nat) (lab : Nat → Label), (∀ n, Sys.StepK F P bp (σ n) (who n) (lab n) (σ (n + 1))) →
    σ 0 = Sys.init → Fair P bp σ who → ∀ t n,
    (InShortCall ((σ n).pc t) → ∃ m > n, (σ m).pc t = .idle ∨ (σ m).pc t = .dead) ∧
    ((σ n).pc t ≠ .aRecv → ∃ m ≥ n, (σ m).pc t = .idle ∨ (σ m).pc t = .dead ∨ (σ m).pc t = .aLock ∨ FindsTaken (σ m) t) ∧
    ((σ n).poisoned .socket = true → ∃ m ≥ n, (σ m).pc t = .idle ∨ (σ m).pc t = .dead ∨ FindsTaken (σ m) t)
/-- The claim, for all algorithms that obey the laws. -/
def C135Statement : Prop := ∀ P, PrimLaws P → C135For P

theorem C135_all : C135Statement := by
  intro P _ F bp σ who lab hσ h0 hf t n
  have hr : Sys.RunK F P bp Sys.init [] (σ 0) := h0 ▸ .nil _
  exact ⟨C135_short_calls_end hσ hr hf t n, C135_accept_goes_on hσ hr hf t n, C135_deaf hσ hr hf t n⟩

/-! The hypotheses are met: thread 0 panics while it waits for a datagram; then threads 1, 2, … call `accept`, one after the other, and panic. -/

def exDiePc (n t : Nat) : Pc :=
  if t = 0 then (match n with | 0 => .idle | 1 => .aLock | 2 => .aRecv | _ + 3 => .dead)
  else if n ≤ 2 * t + 1 then .idle else if n = 2 * t + 2 then .aLock else .dead
def exDie (n : Nat) : Sys := { Sys.init with pc := exDiePc n, poisoned := fun l => decide (3 ≤ n ∧ l = .socket) }
def exDieWho (n : Nat) : Nat := if n < 3 then 0 else (n - 1) / 2
def exDieLab (n : Nat) : Label := if n = 2 ∨ 3 ≤ n ∧ n % 2 = 0 then .panicked else .tau

theorem exDiePc_dead {n t : Nat} (h : 2 * t + 3 ≤ n) : exDiePc n t = .dead := by
  unfold exDiePc
  split
  · subst t
    obtain ⟨k, rfl⟩ : ∃ k, n = k + 3 := ⟨n - 3, by omega⟩
    rfl
  · rw [if_neg (by omega), if_neg (by omega)]

theorem exDie_step {n t : Nat} {l : Label} {p : Pc} {q : Lock → Bool} {s' : Sys} (hs : Sys.StepK (fun _ => True) P bp (exDie n) t l s')
    (h : s' = { (exDie n).goto t p with poisoned := q }) (hq : ∀ l, q l = decide (3 ≤ n + 1 ∧ l = .socket)) (hp : exDiePc (n + 1) t = p)
    (ho : ∀ t', t' ≠ t → exDiePc (n + 1) t' = exDiePc n t') : Sys.StepK (fun _ => True) P bp (exDie n) t l (exDie (n + 1)) := by
  have e : exDie (n + 1) = s' := by
    rw [h]
    simp only [exDie, Sys.goto, Sys.mk.injEq, true_and]
    refine ⟨funext fun l => (hq l).symm, ?_⟩
    funext t'
    by_cases ht : t' = t
    · rw [if_pos ht, ht, hp]
    · rw [if_neg ht, ho t' ht]
  rw [e]; exact hs

theorem exDie_forever : ForeverK (fun _ => True) P bp exDie exDieWho exDieLab := by
  intro n
  have ho : ∀ t, (n < 3 → t ≠ 0) → (3 ≤ n → t ≠ (n - 1) / 2) → exDiePc (n + 1) t = exDiePc n t := by
    intro t h1 h2
    unfold exDiePc
    by_cases h0 : t = 0
    · subst h0
      have : 3 ≤ n := Classical.byContradiction fun h => h1 (by omega) rfl
      obtain ⟨k, rfl⟩ : ∃ k, n = k + 3 := ⟨n - 3, by omega⟩
      rfl
    · rw [if_neg h0, if_neg h0]
      by_cases h3 : n < 3
      · rw [if_pos (by omega), if_pos (by omega)]
      · have := h2 (by omega)
        by_cases g : n ≤ 2 * t
        · rw [if_pos (by omega), if_pos (by omega)]
        · rw [if_neg (by omega), if_neg (by omega), if_neg (by omega), if_neg (by omega)]
  match n, ho with
  | 0, ho =>
    exact exDie_step (.step (.act _ 0 _ .aLock _ (.callAccept _))) rfl (fun l => rfl) rfl fun t h => ho t (fun _ => h) (by omega)
  | 1, ho =>
    refine exDie_step (.step (.acquire _ 0 .socket .write .aRecv rfl ?_ rfl)) rfl (fun l => rfl) rfl fun t h => ho t (fun _ => h) (by omega)
    intro t m' h
    have h : (Lock.socket, m') ∈ (exDiePc 1 t).held := h
    unfold exDiePc at h
    split at h
    · cases h
    · rw [if_pos (by omega)] at h; cases h
  | 2, ho =>
    refine exDie_step (.die (t := 0) trivial (by show exDiePc 2 0 ≠ _; exact nofun)) rfl (fun l => ?_) rfl fun t h => ho t (fun _ => h) (by omega)
    show (decide (3 ≤ 2 ∧ l = .socket) || decide ((l, Mode.write) ∈ [(Lock.socket, Mode.write)])) = _
    simp
  | k + 3, ho =>
    have hw : exDieWho (k + 3) = (k + 2) / 2 := by unfold exDieWho; rw [if_neg (by omega)]; rfl
    rw [hw]
    rcases Nat.mod_two_eq_zero_or_one k with h | h
    · obtain ⟨j, rfl⟩ : ∃ j, k = 2 * j := ⟨k / 2, by omega⟩
      have e : (2 * j + 2) / 2 = j + 1 := by omega
      have hl : exDieLab (2 * j + 3) = .tau := by unfold exDieLab; rw [if_neg (by omega)]
      rw [e, hl]
      have hp : (exDie (2 * j + 3)).pc (j + 1) = .idle := by show exDiePc (2 * j + 3) (j + 1) = _; unfold exDiePc; rw [if_neg (by omega), if_pos (by omega)]
      refine exDie_step (.step (.act _ (j + 1) _ .aLock _ (by rw [hp]; exact .callAccept _))) rfl (fun l => ?_) ?_ fun t h => ho t (by omega) (fun _ => by omega)
      · show decide _ = decide _
        congr 1; simp
      · unfold exDiePc; rw [if_neg (by omega), if_neg (by omega), if_pos (by omega)]
    · obtain ⟨j, rfl⟩ : ∃ j, k = 2 * j + 1 := ⟨k / 2, by omega⟩
      have e : (2 * j + 1 + 2) / 2 = j + 1 := by omega
      have hl : exDieLab (2 * j + 1 + 3) = .panicked := by unfold exDieLab; rw [if_pos (by omega)]
      rw [e, hl]
      have hp : (exDie (2 * j + 1 + 3)).pc (j + 1) = .aLock := by show exDiePc (2 * j + 1 + 3) (j + 1) = _; unfold exDiePc; rw [if_neg (by omega), if_neg (by omega), if_pos (by omega)]
      refine exDie_step (.step (.poisoned _ (j + 1) .socket .write .aRecv (by rw [hp]; rfl) ?_ (by show decide (3 ≤ 2 * j + 1 + 3 ∧ Lock.socket = .socket) = true; simp))) rfl (fun l => ?_) ?_
        fun t h => ho t (by omega) (fun _ => by omega)
      · intro t m' h
        have h : (Lock.socket, m') ∈ (exDiePc (2 * j + 1 + 3) t).held := h
        unfold exDiePc at h
        split at h
        · cases h
        · split at h
          · cases h
          · split at h <;> cases h
      · show (decide _ || decide ((l, Mode.write) ∈ ((exDie (2 * j + 1 + 3)).pc (j + 1)).held)) = _
        rw [hp]
        simp [Pc.held]
      · exact exDiePc_dead (by omega)

theorem exDie_fair : Fair P bp exDie exDieWho where
  sched t n h := by
    obtain ⟨⟨l, s', hs⟩, -⟩ := h (n + (2 * t + 3)) (by omega)
    have hd : (exDie (n + (2 * t + 3))).pc t = .dead := exDiePc_dead (by omega)
    cases hs with
    | act _ p k ha => rw [hd] at ha; cases ha
    | acquire _ m p hw => rw [hd] at hw; cases hw
    | poisoned l m p hw => rw [hd] at hw; cases hw
    | panic h => rw [hd] at h; cases h
  locks t n l md p h _ := by
    have hw := h (n + (2 * t + 3)) (by omega)
    rw [show (exDie (n + (2 * t + 3))).pc t = .dead from exDiePc_dead (by omega)] at hw
    cases hw

theorem exDie_init : exDie 0 = Sys.init := by
  simp only [exDie, Sys.init, Sys.mk.injEq, true_and]
  refine ⟨?_, ?_⟩
  · funext l; simp
  · funext t
    unfold exDiePc
    split
    · rfl
    · rw [if_pos (by omega)]

/-- In it thread 3 panics in the end. -/
example : ∃ m ≥ 8, (exDie m).pc 3 = .idle ∨ (exDie m).pc 3 = .dead ∨ FindsTaken (exDie m) 3 :=
  ((C135_all toy toy_laws (fun _ => True) .debug exDie exDieWho exDieLab exDie_forever exDie_init exDie_fair) 3 8).2.2 (by decide)
example : (exDie 8).pc 3 = .aLock := rfl

end QuicSea
