import Verif.Props.Progress
/-
C95: with a fair scheduler and locks without starvation, every call that does not wait for the network ends.
-/
namespace QuicSea
variable {P : Prims} {bp : Profile}

/-- The thread holds the lock. -/
def Holds (s : Sys) (t : Nat) (l : Lock) : Prop := ∃ m, (l, m) ∈ (s.pc t).held

/-- What is assumed of the operating system and of the locks. -/
structure Fair (P : Prims) (bp : Profile) (σ : Nat → Sys) (who : Nat → Nat) : Prop where
  /-- a thread in a call that can go on all the time, and does not wait for the network, goes on some time -/
  sched : ∀ t n, (∀ m ≥ n, (∃ l s', Sys.Step P bp (σ m) t l s') ∧ (σ m).pc t ≠ .idle ∧ (σ m).pc t ≠ .aRecv) → ∃ m ≥ n, who m = t
  /-- no thread waits for ever for a lock that nobody keeps for ever -/
  locks : ∀ t n l md p, (∀ m ≥ n, ((σ m).pc t).wants = some (l, md, p)) →
    (∀ m ≥ n, ∀ t', Holds (σ m) t' l → ∃ m' > m, ¬ Holds (σ m') t' l) → False

section
variable {σ : Nat → Sys} {who : Nat → Nat} {lab : Nat → Label} {tr0 : List (Nat × Label)}

theorem forever_reachable (hσ : Forever P bp σ who lab) (h0 : Sys.Run P bp Sys.init tr0 (σ 0)) (n : Nat) : ∃ tr, Sys.Run P bp Sys.init tr (σ n) := by
  induction n with
  | zero => exact ⟨tr0, h0⟩
  | succ n ih =>
    obtain ⟨tr, h⟩ := ih
    exact ⟨_, .snoc h (hσ n)⟩

/-- A thread stays where it is until it moves. -/
theorem stays (hσ : Forever P bp σ who lab) (t n j : Nat) (h : ∀ i, n ≤ i → i < n + j → who i ≠ t) : (σ (n + j)).pc t = (σ n).pc t := by
  induction j with
  | zero => rfl
  | succ j ih =>
    rw [← ih fun i h1 h2 => h i h1 (by omega)]
    exact step_others (hσ (n + j)) (Ne.symm (h (n + j) (by omega) (by omega)))

/-- If a thread moves again, then from where it is. -/
theorem first_move (hσ : Forever P bp σ who lab) (t n : Nat) (h : ∃ m ≥ n, who m = t) : ∃ m ≥ n, who m = t ∧ (σ m).pc t = (σ n).pc t := by
  obtain ⟨m, hm, hw⟩ := h
  obtain ⟨j, rfl⟩ : ∃ j, m = n + j := ⟨m - n, by omega⟩
  clear hm
  induction j using Nat.strongRecOn with
  | ind j ih =>
    by_cases he : ∃ i, i < j ∧ who (n + i) = t
    · obtain ⟨i, h1, h2⟩ := he
      exact ih i h1 h2
    · refine ⟨n + j, by omega, hw, stays hσ t n j fun i h1 h2 e => he ⟨i - n, by omega, ?_⟩⟩
      rw [Nat.add_sub_cancel' h1]; exact e

/-- A thread that does not wait for anything moves. -/
theorem moves_ready (hσ : Forever P bp σ who lab) (h0 : Sys.Run P bp Sys.init tr0 (σ 0)) (hf : Fair P bp σ who) (t n : Nat)
    (h1 : (σ n).pc t ≠ .idle) (h2 : (σ n).pc t ≠ .dead) (h3 : (σ n).pc t ≠ .aRecv) (hw : ((σ n).pc t).wants = none) : ∃ m ≥ n, who m = t := by
  refine Classical.byContradiction fun hno => hno (hf.sched t n fun m hm => ?_)
  have he : (σ m).pc t = (σ n).pc t := by
    obtain ⟨j, rfl⟩ : ∃ j, m = n + j := ⟨m - n, by omega⟩
    exact stays hσ t n j fun i h1 _ e => hno ⟨i, h1, e⟩
  obtain ⟨tr, hr⟩ := forever_reachable hσ h0 m
  exact ⟨C54_not_stuck hr t (by rw [he]; exact h2) (by rw [he]; exact hw), by rw [he]; exact h1, by rw [he]; exact h3⟩

/-- A thread that waits for a lock which nobody keeps moves. -/
theorem moves_waiting (hσ : Forever P bp σ who lab) (hf : Fair P bp σ who) (t n : Nat) (l : Lock) (md : Mode) (p : Pc)
    (hw : ((σ n).pc t).wants = some (l, md, p)) (hr : ∀ m t', Holds (σ m) t' l → ∃ m' > m, ¬ Holds (σ m') t' l) : ∃ m ≥ n, who m = t := by
  refine Classical.byContradiction fun hno => hf.locks t n l md p (fun m hm => ?_) fun m _ t' => hr m t'
  obtain ⟨j, rfl⟩ : ∃ j, m = n + j := ⟨m - n, by omega⟩
  rw [stays hσ t n j fun i h1 _ e => hno ⟨i, h1, e⟩]
  exact hw

/-- Nobody keeps a lock other than the socket's for ever. -/
theorem released (hσ : Forever P bp σ who lab) (h0 : Sys.Run P bp Sys.init tr0 (σ 0)) (hf : Fair P bp σ who) (l : Lock) (hl : l ≠ .socket)
    (m t : Nat) (hh : Holds (σ m) t l) : ∃ m' > m, ¬ Holds (σ m') t l := by
  have key : ∀ k (l : Lock), l ≠ .socket → 4 ≤ l.rank + k → ∀ c t m, holdTime ((σ m).pc t) ≤ c → Holds (σ m) t l →
      ∃ m' > m, ¬ Holds (σ m') t l := by
    intro k
    induction k with
    | zero => intro l _ h; cases l <;> simp [Lock.rank] at h
    | succ k ihk =>
      intro l hl hk c
      induction c with
      | zero =>
        intro t m hc ⟨md, hh⟩
        generalize (σ m).pc t = q at hc hh
        cases q <;> simp [holdTime] at hc <;> simp [Pc.held] at hh
        exact absurd hh.1 hl
      | succ c ihc =>
        intro t m hc hh
        obtain ⟨md, hm⟩ := hh
        have hne : ((σ m).pc t).held ≠ [] := fun e => by rw [e] at hm; cases hm
        have hidle : (σ m).pc t ≠ .idle := fun e => by rw [e] at hm; cases hm
        have hdead : (σ m).pc t ≠ .dead := fun e => by rw [e] at hm; cases hm
        have hrecv : (σ m).pc t ≠ .aRecv := fun e => by
          rw [e] at hm
          simp only [Pc.held, List.mem_cons, List.not_mem_nil, or_false, Prod.mk.injEq] at hm
          exact hl hm.1
        have hmv : ∃ i ≥ m, who i = t := by
          cases hw : ((σ m).pc t).wants with
          | none => exact moves_ready hσ h0 hf t m hidle hdead hrecv hw
          | some w =>
            obtain ⟨l2, md2, p2⟩ := w
            have hlt := wants_rank hw hm
            have hl2 : l2 ≠ .socket := by rintro rfl; simp [Lock.rank] at hlt
            exact moves_waiting hσ hf t m l2 md2 p2 hw fun m' t' => ihk l2 hl2 (by omega) _ t' m' (Nat.le_refl _)
        obtain ⟨i, hi, hw, he⟩ := first_move hσ t m hmv
        have hs := hσ i
        rw [hw] at hs
        have hr := (C54_released hs).2.2 (by rw [he]; exact hne) (by rw [he]; exact hrecv)
        rw [he] at hr
        by_cases hh' : Holds (σ (i + 1)) t l
        · obtain ⟨m', h1, h2⟩ := ihc t (i + 1) (by omega) hh'
          exact ⟨m', by omega, h2⟩
        · exact ⟨i + 1, by omega, hh'⟩
  exact key 4 l hl (by omega) _ t m (Nat.le_refl _) hh

/-- A thread in a call that does not wait for the network, nor for the socket, moves. -/
theorem moves (hσ : Forever P bp σ who lab) (h0 : Sys.Run P bp Sys.init tr0 (σ 0)) (hf : Fair P bp σ who) (t n : Nat)
    (h1 : (σ n).pc t ≠ .idle) (h2 : (σ n).pc t ≠ .dead) (h3 : (σ n).pc t ≠ .aRecv) (h4 : (σ n).pc t ≠ .aLock) : ∃ m ≥ n, who m = t := by
  cases hw : ((σ n).pc t).wants with
  | none => exact moves_ready hσ h0 hf t n h1 h2 h3 hw
  | some w =>
    obtain ⟨l, md, p⟩ := w
    have hl : l ≠ .socket := by
      rintro rfl
      generalize (σ n).pc t = q at hw h4
      cases q <;> simp [Pc.wants] at hw h4
    exact moves_waiting hσ hf t n l md p hw fun m t' => released hσ h0 hf l hl m t'

/-- C95: every call of `packets_from_datagram`, `drop_connection` and `set_log_traffic` ends, by returning or by a panic. -/
theorem C95_short_calls_end (hσ : Forever P bp σ who lab) (h0 : Sys.Run P bp Sys.init tr0 (σ 0)) (hf : Fair P bp σ who) (t n : Nat)
    (hp : InShortCall ((σ n).pc t)) : ∃ m > n, (σ m).pc t = .idle ∨ (σ m).pc t = .dead := by
  have key : ∀ c n, callTime ((σ n).pc t) ≤ c → InShortCall ((σ n).pc t) → ∃ m > n, (σ m).pc t = .idle ∨ (σ m).pc t = .dead := by
    intro c
    induction c with
    | zero =>
      intro n hc hp
      generalize (σ n).pc t = q at hc hp
      cases q <;> simp [callTime] at hc <;> exact hp.elim
    | succ c ih =>
      intro n hc hp
      obtain ⟨i, hi, hw, he⟩ := first_move hσ t n (moves hσ h0 hf t n (fun e => by rw [e] at hp; exact hp) (fun e => by rw [e] at hp; exact hp)
        (fun e => by rw [e] at hp; exact hp) (fun e => by rw [e] at hp; exact hp))
      have hs := hσ i
      rw [hw] at hs
      rcases short_step hs (by rw [he]; exact hp) with ⟨h1, h2⟩ | h
      · rw [he] at h2
        obtain ⟨m, h3, h4⟩ := ih (i + 1) (by omega) h1
        exact ⟨m, by omega, h4⟩
      · exact ⟨i + 1, by omega, h⟩
  exact key _ n (Nat.le_refl _) hp

theorem received_from {s s' : Sys} {t : Nat} {d : Datagram} (hs : Sys.Step P bp s t (.received d) s') : s.pc t = .aRecv := by
  cases hs with
  | act _ p k ha =>
    generalize s.pc t = q at ha
    cases ha
    rfl

/-- C95: every datagram that `accept` receives is dealt with: the call ends, or waits for the next datagram, or finds the id it has drawn taken. -/
theorem C95_accept_goes_on (hσ : Forever P bp σ who lab) (h0 : Sys.Run P bp Sys.init tr0 (σ 0)) (hf : Fair P bp σ who) (t n : Nat)
    (hr : (σ n).pc t ≠ .aRecv) : ∃ m ≥ n, (σ m).pc t = .idle ∨ (σ m).pc t = .dead ∨ (σ m).pc t = .aLock ∨ FindsTaken (σ m) t := by
  have key : ∀ c n, callTime ((σ n).pc t) ≤ c → (σ n).pc t ≠ .aRecv →
      ∃ m ≥ n, (σ m).pc t = .idle ∨ (σ m).pc t = .dead ∨ (σ m).pc t = .aLock ∨ FindsTaken (σ m) t := by
    intro c
    induction c with
    | zero =>
      intro n hc _
      refine ⟨n, Nat.le_refl _, ?_⟩
      generalize (σ n).pc t = q at hc
      cases q <;> simp_all [callTime]
    | succ c ih =>
      intro n hc hr
      by_cases h1 : (σ n).pc t = .idle
      · exact ⟨n, Nat.le_refl _, .inl h1⟩
      by_cases h2 : (σ n).pc t = .dead
      · exact ⟨n, Nat.le_refl _, .inr (.inl h2)⟩
      by_cases h3 : (σ n).pc t = .aLock
      · exact ⟨n, Nat.le_refl _, .inr (.inr (.inl h3))⟩
      obtain ⟨i, hi, hw, he⟩ := first_move hσ t n (moves hσ h0 hf t n h1 h2 hr h3)
      have hs := hσ i
      rw [hw] at hs
      by_cases ht : FindsTaken (σ i) t
      · exact ⟨i, hi, .inr (.inr (.inr ht))⟩
      have hnr : ∀ d, lab i ≠ .received d := by
        intro d e
        rw [e] at hs
        exact hr (he ▸ received_from hs)
      have hlt := step_callTime hs (by rw [he]; exact h1) (by rw [he]; exact h2) hnr ht
      rw [he] at hlt
      have hr' : (σ (i + 1)).pc t ≠ .aRecv := by
        intro e
        have : ∀ {s l s'}, Sys.Step P bp s t l s' → s'.pc t = .aRecv → s.pc t = .aLock := by
          intro s l s' hs e
          cases hs with
          | act _ p k ha =>
            simp [Sys.goto] at e; subst e
            generalize s.pc t = q at ha
            cases ha
          | acquire _ m p hw =>
            simp [Sys.goto] at e; subst e
            generalize s.pc t = q at hw
            cases q <;> simp [Pc.wants] at hw
            rfl
          | poisoned => simp [Sys.kill, Sys.goto] at e
          | panic => simp [Sys.kill, Sys.goto] at e
        exact h3 (he ▸ this hs e)
      obtain ⟨m, h4, h5⟩ := ih (i + 1) (by omega) hr'
      exact ⟨m, by omega, h5⟩
  exact key _ n (Nat.le_refl _) hr
end

/-! A fair execution without end: thread 0 calls `accept`, receives an empty datagram, and panics; then thread 1 calls
`set_log_traffic` over and over. -/

/-- Where thread 0 is. -/
def exFair0 : Nat → Pc
  | 0 => .idle | 1 => .aLock | 2 => .aRecv | 3 => .aLog ⟨[], 7⟩ | 4 => .aFlag ⟨[], 7⟩ | 5 => .aPrint ⟨[], 7⟩ false
  | 6 => .aParse ⟨[], 7⟩ | 7 => .aRoute ⟨[], 7⟩ | 8 => .aUnwrap ⟨[], 7⟩ | _ + 9 => .dead

/-- Where thread 1 is. -/
def exFair1 (n : Nat) : Pc := if n < 9 ∨ n % 3 = 0 then .idle else if n % 3 = 1 then .sLock false else .sSet false

def exFair (n : Nat) : Sys :=
  { Sys.init with pc := fun t => if t = 0 then exFair0 n else if t = 1 then exFair1 n else .idle }

def exFairWho (n : Nat) : Nat := if n < 9 then 0 else 1

def exFairLab (n : Nat) : Label := if n = 2 then .received ⟨[], 7⟩ else if n = 8 then .panicked else .tau

theorem exFair_dead (n : Nat) (h : 9 ≤ n) : exFair0 n = .dead := by
  obtain ⟨k, rfl⟩ : ∃ k, n = k + 9 := ⟨n - 9, by omega⟩
  rfl

/-- A step of thread 0. -/
theorem exFair_first {n : Nat} {l : Label} {s' : Sys} (hn : n < 9) (hs : Sys.Step P bp (exFair n) 0 l s')
    (h : s' = ({ Sys.init with pc := fun t => if t = 0 then exFair0 (n + 1) else .idle } : Sys)) : Sys.Step P bp (exFair n) 0 l (exFair (n + 1)) := by
  have e : exFair (n + 1) = s' := by
    rw [h]
    simp only [exFair, Sys.mk.injEq, true_and]
    funext t
    by_cases h0 : t = 0
    · simp [h0]
    · by_cases h1 : t = 1
      · simp only [h1, exFair1]
        by_cases h9 : n + 1 < 9
        · simp [h9]
        · simp [show n = 8 by omega]
      · simp [h0, h1]
  rw [e]; exact hs

theorem exFair_goto {n : Nat} (hn : n < 9) (p : Pc) : (exFair n).goto 0 p = { Sys.init with pc := fun t => if t = 0 then p else .idle } := by
  simp only [exFair, Sys.goto, Sys.mk.injEq, true_and]
  funext t
  by_cases h0 : t = 0
  · simp [h0]
  · by_cases h1 : t = 1 <;> simp [h0, h1, exFair1, hn]

theorem exFair_goto1 {n : Nat} (hn : 9 ≤ n) (p : Pc) (hp : exFair1 (n + 1) = p) : (exFair n).goto 1 p = exFair (n + 1) := by
  simp only [exFair, Sys.goto, Sys.mk.injEq, true_and]
  funext t
  by_cases h0 : t = 0
  · simp [h0, exFair_dead n hn, exFair_dead (n + 1) (by omega)]
  · by_cases h1 : t = 1 <;> simp [h0, h1, hp]

theorem exFair_free {n : Nat} {l : Lock} {m : Mode} (h0 : ∀ m', (l, m') ∉ (exFair0 n).held) (h1 : ∀ m', (l, m') ∉ (exFair1 n).held) :
    (exFair n).Free l m := by
  intro t m' hm
  by_cases t0 : t = 0
  · simp [exFair, t0] at hm; exact absurd hm (h0 m')
  · by_cases t1 : t = 1
    · simp [exFair, t1] at hm; exact absurd hm (h1 m')
    · simp [exFair, t0, t1, Pc.held] at hm

theorem exFair_forever : Forever P bp exFair exFairWho exFairLab := by
  intro n
  by_cases hn : n < 9
  · rw [show exFairWho n = 0 by simp [exFairWho, hn]]
    have act : ∀ l, Act P bp (exFair0 n) Sock.bind l (exFair0 (n + 1)) Sock.bind → Sys.Step P bp (exFair n) 0 l (exFair (n + 1)) := fun l h =>
      exFair_first hn (.act (exFair n) 0 l (exFair0 (n + 1)) Sock.bind h) (by rw [exFair_goto hn]; rfl)
    have acq : ∀ l m, (exFair0 n).wants = some (l, m, exFair0 (n + 1)) → (∀ m', (l, m') ∉ (exFair0 n).held) →
        Sys.Step P bp (exFair n) 0 .tau (exFair (n + 1)) := fun l m h1 h2 =>
      exFair_first hn (.acquire (exFair n) 0 l m (exFair0 (n + 1)) h1 (exFair_free h2 (by simp [exFair1, hn, Pc.held])) rfl) (exFair_goto hn _)
    obtain ⟨e, he⟩ : ∃ e, (nextHeaderFromStream (makeResultStream [])).1 = .err e := ⟨_, rfl⟩
    match n, hn, act, acq with
    | 0, _, act, acq => exact act _ (.callAccept _)
    | 1, _, act, acq => exact acq .socket .write rfl (by simp [exFair0, Pc.held])
    | 2, _, act, acq => exact act _ (.recv _ [] 7)
    | 3, _, act, acq => exact acq .log .read rfl (by simp [exFair0, Pc.held])
    | 4, _, act, acq => exact act _ (.flag _ _)
    | 5, _, act, acq => exact act _ (.noPrint _ _)
    | 6, _, act, acq => exact act _ (.parseError _ _ _ he)
    | 7, _, act, acq => exact act _ (.routeError _ _ _ he)
    | 8, hn, act, acq =>
      refine exFair_first hn (.panic (exFair 8) 0 (.unwrap _ _)) ?_
      simp only [Sys.kill, exFair_goto hn, Sys.mk.injEq, true_and]
      refine ⟨?_, rfl⟩
      funext l
      simp [exFair, Sys.init, exFair0, Pc.held]
  · have h9 : 9 ≤ n := by omega
    rw [show exFairWho n = 1 by simp [exFairWho, hn], show exFairLab n = .tau by simp [exFairLab, show n ≠ 2 by omega, show n ≠ 8 by omega]]
    rcases (by omega : n % 3 = 0 ∨ n % 3 = 1 ∨ n % 3 = 2) with h | h | h
    · rw [← exFair_goto1 h9 (.sLock false) (by simp [exFair1, Nat.add_mod, h]; omega)]
      refine .act (exFair n) 1 _ _ (exFair n).sock ?_
      rw [show (exFair n).pc 1 = .idle by simp [exFair, exFair1, h]]
      exact .callSetLog _ _
    · rw [← exFair_goto1 h9 (.sSet false) (by simp [exFair1, Nat.add_mod, h]; omega)]
      refine .acquire _ _ .log .write _ ?_ (exFair_free ?_ ?_) rfl
      · simp [exFair, exFair1, h, hn, Pc.wants]
      · simp [exFair_dead n h9, Pc.held]
      · simp [exFair1, h, hn, Pc.held]
    · rw [← exFair_goto1 h9 .idle (by simp [exFair1, Nat.add_mod, h])]
      refine .act (exFair n) 1 _ _ { (exFair n).sock with logTraffic := false } ?_
      rw [show (exFair n).pc 1 = .sSet false by simp [exFair, exFair1, h, hn]]
      exact .setLog _ _

theorem exFair_fair : Fair P bp exFair exFairWho where
  sched t n h := by
    by_cases t0 : t = 0
    · obtain ⟨⟨l, s', hs⟩, -⟩ := h (n + 9) (by omega)
      subst t0
      have hd : (exFair (n + 9)).pc 0 = .dead := exFair_dead (n + 9) (by omega)
      cases hs with
      | act _ p k ha => rw [hd] at ha; cases ha
      | acquire _ m p hw => rw [hd] at hw; cases hw
      | poisoned l m p hw => rw [hd] at hw; cases hw
      | panic h => rw [hd] at h; cases h
    · by_cases t1 : t = 1
      · exact ⟨n + 9, by omega, by simp [exFairWho, t1]⟩
      · exact absurd (by simp [exFair, t0, t1]) (h n (Nat.le_refl _)).2.1
  locks t n l md p h _ := by
    have hw := h (3 * n + 9) (by omega)
    by_cases t0 : t = 0
    · subst t0; simp [exFair, exFair_dead, Pc.wants] at hw
    · by_cases t1 : t = 1
      · subst t1; simp [exFair, exFair1, Pc.wants] at hw
      · simp [exFair, t0, t1, Pc.wants] at hw

theorem exFair_init : exFair 0 = Sys.init := by
  simp only [exFair, Sys.init, Sys.mk.injEq, true_and]
  funext t
  simp only [exFair0, exFair1]
  split
  · rfl
  · split <;> rfl

theorem exFair_reachable : Sys.Run P bp Sys.init [] (exFair 0) := exFair_init ▸ .nil _

example : ∃ m > 10, (exFair m).pc 1 = .idle ∨ (exFair m).pc 1 = .dead :=
  C95_short_calls_end (P := Spec.toy) (bp := .debug) exFair_forever exFair_reachable exFair_fair 1 10 trivial
example : ∃ m ≥ 3, (exFair m).pc 0 = .idle ∨ (exFair m).pc 0 = .dead ∨ (exFair m).pc 0 = .aLock ∨ FindsTaken (exFair m) 0 :=
  C95_accept_goes_on (P := Spec.toy) (bp := .debug) exFair_forever exFair_reachable exFair_fair 0 3 (by simp [exFair, exFair0])

end QuicSea
