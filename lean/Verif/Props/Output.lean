import Verif.Model.Output
import Verif.Props.Env
import Verif.Props.Concurrent
/-
C101: a log that cannot be written does not disable the socket. False: `recv_datagram` prints while it holds the socket's lock.
-/
namespace QuicSea
open Spec Sock
variable {P : Prims} {bp : Profile} {w : Env}

/-- C101 as one would have it: whatever becomes of the outputs, no lock of the socket is ever poisoned. -/
def C101For (P : Prims) : Prop :=
  ∀ (bp : Profile) (w : Env) (tr : List (Nat × Label)) (s : Sys), Sys.RunE w true P bp Sys.init tr s → ∀ l, s.poisoned l = false
/-- The claim, for all algorithms that obey the laws. -/
def C101Statement : Prop := ∀ P, PrimLaws P → C101For P

/-! ### Writable outputs -/

theorem header_writable (ho : w.stdout = true) (data : Bytes) : (nextHeaderFromStreamP w (makeResultStream data)).1 = (nextHeaderFromStream (makeResultStream data)).1 := by
  rcases header_env w data with h | ⟨e, i, h1, s, s', h2⟩
  · rw [h]
  · rw [h2, ho, h1]; rfl
theorem not_fails (ho : w.stdout = true) (he : w.stderr = true) (k : Sock) (p : Pc) : ¬ p.FailsToPrint w bp k := by
  intro h
  have hp : ∀ d : Datagram, (nextHeaderFromStreamP w (makeResultStream d.data)).1.isPanic = false := fun d => by
    rw [header_writable ho]; exact nextHeader_noPanic _
  cases p with
  | aPrint d l => exact absurd h.2 (by simp [ho])
  | pPrint d l => exact absurd h.2 (by simp [ho])
  | aParse d =>
    rcases h with h | h
    · rw [hp] at h; cases h
    · exact absurd h.2 (by simp [he])
  | aRoute d => have h : _ = true := h; rw [hp] at h; cases h
  | aNew d => have h : _ = true := h; rw [hp] at h; cases h
  | pParse d => have h : _ = true := h; rw [hp] at h; cases h
  | pDecode d cid => exact absurd h.1 (by simp [ho])
  | _ => exact h

/-- While both outputs can be written the executions are those of `Verif.Model.Concurrent`, so that everything proved about those holds: no deadlock, no
poisoned lock, and so on (C54, C88, C95).
Missing for the full statement: outputs that cannot be written, for which it is false while logging is on (`C101_log_poisons`). -/
theorem C101_writable_partial (ho : w.stdout = true) (he : w.stderr = true) (tr : List (Nat × Label)) (s : Sys) :
    Sys.RunE w true P bp Sys.init tr s ↔ Sys.Run P bp Sys.init tr s := by
  constructor
  · intro h
    induction h with
    | nil => exact .nil _
    | snoc _ hs _ ih =>
      cases hs with
      | step h _ => exact .snoc ih h
      | output h => exact absurd h (not_fails ho he _ _)
  · intro h
    induction h with
    | nil => exact .nil _
    | snoc _ hs ih => exact .snoc ih (.step hs (not_fails ho he _ _)) (.inl rfl)

/-! ### Logging never switched on -/

/-- A program counter of a thread that neither logs nor is about to switch logging on. -/
def Pc.Quiet : Pc → Prop
  | .aPrint _ log => log = false
  | .pPrint _ log => log = false
  | .sLock flag => flag = false
  | .sSet flag => flag = false
  | _ => True
theorem quiet_held {k : Sock} {p : Pc} (hq : p.Quiet) (h : p.FailsToPrint w bp k) : ∀ l, (l, Mode.write) ∉ p.held := by
  intro l
  cases p with
  | aPrint d l => have hq : l = false := hq; rw [hq] at h; cases h.1
  | aParse d => simp [Pc.held]
  | aRoute d => simp [Pc.held]
  | aNew d => simp [Pc.held]
  | pParse d => simp [Pc.held]
  | pDecode d cid => simp [Pc.held]
  | pPrint d l => simp [Pc.held]
  | _ => exact absurd h id
theorem act_quiet {p k l p' k'} (h : Act P bp p k l p' k') (hl : k.logTraffic = false) (hq : p.Quiet) (hs : p' ≠ .sLock true) :
    k'.logTraffic = false ∧ p'.Quiet := by
  cases h with
  | callSetLog k f => cases f <;> simp_all [Pc.Quiet]
  | setLog k f => exact ⟨hq, trivial⟩
  | _ => first | exact ⟨hl, trivial⟩ | exact ⟨hl, hl⟩ | exact ⟨hl, hq⟩

/-- Whatever becomes of the outputs, as long as logging is not switched on: no lock is poisoned, and a lock held for writing excludes all other holders.
Missing for the full statement: outputs that cannot be written while logging is on, for which it is false (`C101_log_poisons`). -/
theorem C101_quiet_partial {tr s} (h : Sys.RunE w false P bp Sys.init tr s) : (∀ l, s.poisoned l = false)
    ∧ ∀ t t' l m, (l, Mode.write) ∈ (s.pc t).held → (l, m) ∈ (s.pc t').held → t = t' := by
  suffices hi : Inv P s ∧ s.sock.logTraffic = false ∧ ∀ t, (s.pc t).Quiet from
    ⟨hi.1.clean, fun t t' l m h h' => Classical.byContradiction fun hne => by cases (hi.1.excl t t' l .write m hne h h').1⟩
  induction h with
  | nil => exact ⟨inv_init, rfl, fun _ => trivial⟩
  | @snoc _ s t l s' _ hs hq ih =>
    obtain ⟨hi, hl, hp⟩ := ih
    have hq : s'.pc t ≠ .sLock true := hq.resolve_left (by simp)
    cases hs with
    | output h =>
      refine ⟨inv_kill hi t (quiet_held (hp t) h), hl, fun t1 => ?_⟩
      show (if t1 = t then Pc.dead else s.pc t1).Quiet
      split
      · trivial
      · exact hp t1
    | step h hn =>
      refine ⟨inv_step hi h, ?_⟩
      cases h with
      | act _ p k ha =>
        have hq : p ≠ .sLock true := by simpa [Sys.goto] using hq
        obtain ⟨g1, g2⟩ := act_quiet ha hl (hp t) hq
        refine ⟨g1, fun t1 => ?_⟩
        show (if t1 = t then p else s.pc t1).Quiet
        split
        · exact g2
        · exact hp t1
      | acquire l m p hw hf hp' =>
        refine ⟨hl, fun t1 => ?_⟩
        show (if t1 = t then p else s.pc t1).Quiet
        split
        · have := hp t
          revert this hw
          cases s.pc t <;> simp only [Pc.wants, Option.some.injEq, Prod.mk.injEq, reduceCtorEq, false_implies] <;> rintro ⟨-, -, rfl⟩ this <;>
            first | trivial | exact this
        · exact hp t1
      | poisoned l m p hw hf hp' =>
        refine ⟨hl, fun t1 => ?_⟩
        show (if t1 = t then Pc.dead else s.pc t1).Quiet
        split
        · trivial
        · exact hp t1
      | panic h =>
        refine ⟨hl, fun t1 => ?_⟩
        show (if t1 = t then Pc.dead else s.pc t1).Quiet
        split
        · trivial
        · exact hp t1

/-! ### Logging to a closed output -/

/-- The step of a thread that logs a received datagram to a standard output that cannot be written: it panics, and the socket's lock is poisoned. -/
theorem C101_log_poisons (ho : w.stdout = false) {s : Sys} {t : Nat} {d : Datagram} (hp : s.pc t = .aPrint d true) {l s'} (h : Sys.StepE w P bp s t l s') :
    s'.pc t = .dead ∧ s'.poisoned .socket = true := by
  have hf : (s.pc t).FailsToPrint w bp s.sock := by rw [hp]; exact ⟨rfl, ho⟩
  cases h with
  | step _ hn => exact absurd hf hn
  | output _ =>
    refine ⟨?_, ?_⟩
    · show (if t = t then Pc.dead else s.pc t) = _
      rw [if_pos rfl]
    · show (s.poisoned .socket || decide ((Lock.socket, Mode.write) ∈ (s.pc t).held)) = true
      rw [hp]
      simp [Pc.held]

/-- Elsewhere a thread that cannot print dies as well, but poisons nothing: in `packets_from_datagram` with logging on, and in `accept` at a datagram whose header
cannot be read, which is reported on standard error with logging off. -/
theorem C101_others_die {s : Sys} {t : Nat}
    (hp : (w.stdout = false ∧ ∃ ps, s.pc t = .pPrint ps true)
      ∨ (w.stderr = false ∧ ∃ d e, s.pc t = .aParse d ∧ (nextHeaderFromStream (makeResultStream d.data)).1 = .err e))
    {l s'} (h : Sys.StepE w P bp s t l s') : s'.pc t = .dead ∧ s'.poisoned = s.poisoned := by
  have hf : (s.pc t).FailsToPrint w bp s.sock ∧ (s.pc t).held = [] := by
    rcases hp with ⟨ho, ps, hp⟩ | ⟨he, d, e, hp, hd⟩
    · rw [hp]; exact ⟨⟨rfl, ho⟩, rfl⟩
    · rw [hp]
      refine ⟨?_, rfl⟩
      rcases header_env w d.data with h | ⟨e', i, h1, s1, s2, h2⟩
      · exact .inr ⟨by rw [h]; show (nextHeaderFromStream _).1.isErr = true; rw [hd]; rfl, he⟩
      · cases ho : w.stdout
        · exact .inl (by rw [h2, ho]; rfl)
        · exact .inr ⟨by rw [h2, ho]; rfl, he⟩
  cases h with
  | step _ hn => exact absurd hf.1 hn
  | output _ =>
    refine ⟨?_, ?_⟩
    · show (if t = t then Pc.dead else s.pc t) = _
      rw [if_pos rfl]
    · funext l
      show (s.poisoned l || decide ((l, Mode.write) ∈ (s.pc t).held)) = _
      rw [hf.2]
      simp
/-- So does a thread whose datagram makes the decoding print a line, with logging off. -/
theorem C101_decoding_dies {s : Sys} {t : Nat} (ho : w.stdout = false) {d : Datagram} {cid : U160} {x : StreamState} (hp : s.pc t = .pDecode d cid)
    (hx : s.sock.streams cid = some x) (hd : (decodePacketsP ⟨64, true, w.stderr⟩ bp x.connection (makeResultStream d.data)).2.2 ≠ [])
    {l s'} (h : Sys.StepE w P bp s t l s') : s'.pc t = .dead ∧ s'.poisoned = s.poisoned := by
  have hf : (s.pc t).FailsToPrint w bp s.sock := by
    rw [hp]
    refine ⟨ho, x, hx, ?_⟩
    rcases (C99_outputs_partial bp x.connection w.stderr (makeResultStream d.data)).1 with h | ⟨-, i, s', -, h2⟩
    · rw [h] at hd; exact absurd rfl hd
    · have : ({ w with ptr := 64 } : Env) = ⟨64, false, w.stderr⟩ := by rw [← ho]
      rw [this, h2]; rfl
  cases h with
  | step _ hn => exact absurd hf hn
  | output _ =>
    refine ⟨?_, ?_⟩
    · show (if t = t then Pc.dead else s.pc t) = _
      rw [if_pos rfl]
    · funext l
      show (s.poisoned l || decide ((l, Mode.write) ∈ (s.pc t).held)) = _
      rw [hp]
      simp [Pc.held]
/-- Such a datagram: it ends within the token of an Initial packet. -/
example : (decodePacketsP ⟨64, true, true⟩ .debug exConn (makeResultStream [0xc0, 0, 0, 0, 1, 0, 0, 5, 1, 2])).2.2 = [2] := by decide +kernel

/-- Outputs that cannot be written make no difference to a datagram that is accepted, nor to the reading of a header that can be read.
Missing for the full statement: that no lock is poisoned, which is false while logging is on (`C101_log_poisons`). -/
theorem C101_accepted_partial {s s' : Sys} {t : Nat} {l : Label}
    (hp : (∃ d cid x ps, s.pc t = .pDecode d cid ∧ s.sock.streams cid = some x ∧ (decodePackets bp x.connection (makeResultStream d.data)).1 = .ok ps)
      ∨ ∃ d x, (s.pc t = .aParse d ∨ s.pc t = .aRoute d ∨ s.pc t = .aNew d ∨ s.pc t = .pParse d) ∧ (nextHeaderFromStream (makeResultStream d.data)).1 = .ok x) :
    Sys.StepE w P bp s t l s' ↔ Sys.Step P bp s t l s' := by
  have hn : ¬ (s.pc t).FailsToPrint w bp s.sock := by
    rcases hp with ⟨d, cid, x, ps, hp, hx, hd⟩ | ⟨d, x, hp, hd⟩
    · rw [hp]
      rintro ⟨-, y, hy, h⟩
      rw [hx] at hy
      cases hy
      rcases (C99_outputs_partial bp x.connection w.stderr (makeResultStream d.data)).1 with g | ⟨g, -⟩
      · rw [show ({ w with ptr := 64 } : Env) = ⟨64, w.stdout, w.stderr⟩ from rfl, g] at h
        have h : (decodePackets bp x.connection (makeResultStream d.data)).1.isPanic = true := h
        rw [hd] at h; cases h
      · exact g ps hd
    · have hh : (nextHeaderFromStreamP w (makeResultStream d.data)).1 = .ok x := by
        rcases header_env w d.data with h | ⟨e', i, h1, s1, s2, h2⟩
        · rw [h]; exact hd
        · rw [hd] at h1; cases h1
      rcases hp with hp | hp | hp | hp
      · rw [hp]
        rintro (h | ⟨h, -⟩)
        · rw [hh] at h; cases h
        · rw [hh] at h; cases h
      all_goals
        rw [hp]
        intro h
        have h : (nextHeaderFromStreamP w (makeResultStream d.data)).1.isPanic = true := h
        rw [hh] at h; cases h
  constructor
  · intro h
    cases h with
    | step h _ => exact h
    | output h => exact absurd h hn
  · exact fun h => .step h hn
/-- One byte is a datagram whose header cannot be read. -/
example : (nextHeaderFromStream (makeResultStream [0x80])).1.isErr = true := by decide +kernel

/-- Locks exclude, and nobody holds the socket once it is poisoned. -/
structure InvE (s : Sys) : Prop where
  excl : ∀ t t' l m m', t ≠ t' → (l, m) ∈ (s.pc t).held → (l, m') ∈ (s.pc t').held → m = .read ∧ m' = .read
  socketWrite : ∀ t m, (Lock.socket, m) ∈ (s.pc t).held → m = .write
  deaf : s.poisoned .socket = true → ∀ t m, (Lock.socket, m) ∉ (s.pc t).held
theorem socket_write (p : Pc) (m : Mode) (h : (Lock.socket, m) ∈ p.held) : m = .write := by
  cases p <;> simp [Pc.held] at h <;> first | exact h | exact h.1
theorem invE_kill {s : Sys} (hi : InvE s) (t : Nat) : InvE (s.kill t) where
  excl := by
    intro t1 t2 l m m' hne h1 h2
    have e1 : (s.kill t).pc t1 = if t1 = t then .dead else s.pc t1 := rfl
    have e2 : (s.kill t).pc t2 = if t2 = t then .dead else s.pc t2 := rfl
    rw [e1] at h1; rw [e2] at h2
    split at h1
    · cases h1
    · split at h2
      · cases h2
      · exact hi.excl t1 t2 l m m' hne h1 h2
  socketWrite := fun t1 m h => socket_write _ _ h
  deaf := by
    intro hp t1 m h
    have e1 : (s.kill t).pc t1 = if t1 = t then .dead else s.pc t1 := rfl
    rw [e1] at h
    split at h
    · cases h
    · rename_i hne
      have hp : (s.poisoned .socket || decide ((Lock.socket, Mode.write) ∈ (s.pc t).held)) = true := hp
      rcases Bool.or_eq_true_iff.mp hp with hp | hp
      · exact hi.deaf hp t1 m h
      · have := hi.excl t1 t .socket m .write hne h (of_decide_eq_true hp)
        cases this.2
theorem invE_step {s s' : Sys} {t l} (hi : InvE s) (h : Sys.StepE w P bp s t l s') : InvE s' := by
  cases h with
  | output _ => exact invE_kill hi t
  | step h _ =>
    cases h with
    | act _ p k ha =>
      have hpc : ∀ t1, ({ s.goto t p with sock := k } : Sys).pc t1 = if t1 = t then p else s.pc t1 := fun _ => rfl
      have hh : ∀ t1 x, x ∈ (({ s.goto t p with sock := k } : Sys).pc t1).held → x ∈ (s.pc t1).held := by
        intro t1 x hx
        rw [hpc] at hx
        split at hx
        · rename_i e; rw [e]; exact act_held ha hx
        · exact hx
      exact ⟨fun t1 t2 l m m' hne h1 h2 => hi.excl t1 t2 l m m' hne (hh _ _ h1) (hh _ _ h2), fun t1 m h => socket_write _ _ h,
        fun hp t1 m h => hi.deaf hp t1 m (hh _ _ h)⟩
    | acquire l m p hw hf hp =>
      have hpc : ∀ t1, (s.goto t p).pc t1 = if t1 = t then p else s.pc t1 := fun _ => rfl
      refine ⟨fun t1 t2 l' m1 m2 hne h1 h2 => ?_, fun t1 m h => socket_write _ _ h, fun hp' t1 m' h => ?_⟩
      · rw [hpc] at h1 h2
        by_cases e1 : t1 = t
        · rw [if_pos e1] at h1
          have e2 : t2 ≠ t := fun e => hne (e1.trans e.symm)
          rw [if_neg e2] at h2
          rcases (wants_held hw _).mp h1 with g | g
          · exact hi.excl t1 t2 l' m1 m2 hne (by rw [e1]; exact g) h2
          · cases g
            exact hf t2 m2 h2
        · rw [if_neg e1] at h1
          by_cases e2 : t2 = t
          · rw [if_pos e2] at h2
            rcases (wants_held hw _).mp h2 with g | g
            · exact hi.excl t1 t2 l' m1 m2 hne h1 (by rw [e2]; exact g)
            · cases g
              exact (hf t1 m1 h1).symm
          · rw [if_neg e2] at h2
            exact hi.excl t1 t2 l' m1 m2 hne h1 h2
      · have hp' : s.poisoned .socket = true := hp'
        rw [hpc] at h
        split at h
        · rcases (wants_held hw _).mp h with g | g
          · exact hi.deaf hp' t m' g
          · cases g; rw [hp'] at hp; cases hp
        · exact hi.deaf hp' t1 m' h
    | poisoned l m p hw hf hp => exact invE_kill hi t
    | panic h => exact invE_kill hi t
theorem stepE_poison {s s' : Sys} {t l} (h : Sys.StepE w P bp s t l s') (hp : s.poisoned .socket = true) : s'.poisoned .socket = true := by
  have hk : (s.kill t).poisoned .socket = true := by
    show (s.poisoned .socket || _) = true
    rw [hp]; rfl
  cases h with
  | output _ => exact hk
  | step h _ =>
    cases h with
    | act _ p k ha => exact hp
    | acquire l m p hw hf hp' => exact hp
    | poisoned l m p hw hf hp' => exact hk
    | panic h => exact hk
theorem invE_reachable {b tr s} (h : Sys.RunE w b P bp Sys.init tr s) : InvE s := by
  induction h with
  | nil => exact ⟨fun t t' l m m' _ h => (nomatch h), fun t m h => (nomatch h), fun _ t m h => (nomatch h)⟩
  | snoc _ hs _ ih => exact invE_step (ih) hs

/-- Once the socket's lock is poisoned no datagram is received any more, whatever is called, and a call of `accept` ends in a panic: the step of a thread
that is about to lock the socket can only be that. -/
theorem C101_deaf {tr s} (h : Sys.RunE w true P bp Sys.init tr s) (hp : s.poisoned .socket = true) {tr' s'} (h' : Sys.RunE w true P bp s tr' s') :
    (∀ t d, (t, Label.received d) ∉ tr') ∧ s'.poisoned .socket = true
    ∧ ∀ t, s'.pc t = .aLock → (∀ l s'', Sys.StepE w P bp s' t l s'' → s''.pc t = .dead) ∧ ∃ l s'', Sys.StepE w P bp s' t l s'' := by
  have key : InvE s' ∧ s'.poisoned .socket = true ∧ ∀ t d, (t, Label.received d) ∉ tr' := by
    have hi := invE_reachable h
    induction h' with
    | nil => exact ⟨hi, hp, by simp⟩
    | @snoc _ s1 t l s2 _ hs _ ih =>
      obtain ⟨g1, g2, g3⟩ := ih
      refine ⟨invE_step g1 hs, stepE_poison hs g2, fun t1 d hm => ?_⟩
      rcases List.mem_append.mp hm with hm | hm
      · exact g3 t1 d hm
      · simp only [List.mem_cons, List.not_mem_nil, or_false, Prod.mk.injEq] at hm
        obtain ⟨rfl, hl⟩ := hm
        clear hm
        cases hs with
        | output _ => cases hl
        | step hs _ =>
          subst hl
          generalize hpc : s1.pc t1 = p0 at *
          cases hs with
          | act _ p k ha =>
            rw [hpc] at ha
            cases ha with
            | recv => exact g1.deaf g2 t1 .write (by rw [hpc]; simp [Pc.held])
  obtain ⟨hi, hp', hr⟩ := key
  refine ⟨hr, hp', fun t ht => ⟨fun l s'' hs => ?_, ?_⟩⟩
  · have hd : (s'.kill t).pc t = .dead := by
      show (if t = t then Pc.dead else s'.pc t) = _
      rw [if_pos rfl]
    cases hs with
    | output _ => exact hd
    | step hs _ =>
      cases hs with
      | act _ p k ha => rw [ht] at ha; cases ha
      | acquire l m p hw hf hp'' =>
        rw [ht] at hw
        cases hw
        rw [hp'] at hp''; cases hp''
      | poisoned l m p hw hf hp'' => exact hd
      | panic h => exact hd
  · refine ⟨_, _, .step (.poisoned s' t .socket .write .aRecv (by rw [ht]; rfl) (fun t1 m hm => absurd hm (hi.deaf hp' t1 m)) hp') ?_⟩
    rw [ht]
    exact id

/-! ### The witness -/

/-- A run in which only thread 0 has done anything, and nothing went wrong. -/
def Solo (w : Env) (P : Prims) (bp : Profile) (p : Pc) (k : Sock) (tr : List (Nat × Label)) : Prop :=
  ∃ s, Sys.RunE w true P bp Sys.init tr s ∧ s.pc 0 = p ∧ (∀ t, t ≠ 0 → s.pc t = .idle) ∧ (∀ l, s.poisoned l = false) ∧ s.sock = k
theorem Solo.act {p k tr l p' k'} (h : Solo w P bp p k tr) (ha : Act P bp p k l p' k') (hn : ¬ p.FailsToPrint w bp k) :
    Solo w P bp p' k' (tr ++ [(0, l)]) := by
  obtain ⟨s, hr, hp, ho, hc, rfl⟩ := h
  refine ⟨{ s.goto 0 p' with sock := k' }, .snoc hr (.step (.act s 0 l p' k' (by rw [hp]; exact ha)) (by rw [hp]; exact hn)) (.inl rfl), ?_, ?_, hc, rfl⟩
  · show (if 0 = 0 then p' else s.pc 0) = p'
    rw [if_pos rfl]
  · intro t ht
    show (if t = 0 then p' else s.pc t) = _
    rw [if_neg ht]; exact ho t ht
theorem Solo.acquire {p k tr l m p'} (h : Solo w P bp p k tr) (hw : p.wants = some (l, m, p')) (hl : ∀ m', (l, m') ∉ p.held) (hn : ¬ p.FailsToPrint w bp k) :
    Solo w P bp p' k (tr ++ [(0, .tau)]) := by
  obtain ⟨s, hr, hp, ho, hc, rfl⟩ := h
  refine ⟨s.goto 0 p', .snoc hr (.step (.acquire s 0 l m p' (by rw [hp]; exact hw) ?_ (hc l)) (by rw [hp]; exact hn)) (.inl rfl), ?_, ?_, hc, rfl⟩
  · intro t m' h
    by_cases e : t = 0
    · rw [e, hp] at h; exact absurd h (hl m')
    · rw [ho t e] at h; cases h
  · show (if 0 = 0 then p' else s.pc 0) = p'
    rw [if_pos rfl]
  · intro t ht
    show (if t = 0 then p' else s.pc t) = _
    rw [if_neg ht]; exact ho t ht

/-- Whatever the first datagram is and whoever sends it: if logging is on and standard output cannot be written, it disables the socket. -/
theorem C101_any_datagram (P : Prims) (bp : Profile) (w : Env) (ho : w.stdout = false) (raw : Bytes) (addr : Nat) :
    ∃ tr s, Sys.RunE w true P bp Sys.init tr s ∧ (0, Label.received ⟨raw.take Sock.RECV_BUFFER_LEN, addr⟩) ∈ tr ∧ s.poisoned .socket = true
      ∧ ∀ t, t ≠ 0 → s.pc t = .idle := by
  have h0 : Solo w P bp .idle Sock.bind [] := ⟨Sys.init, .nil _, rfl, fun _ _ => rfl, fun _ => rfl, rfl⟩
  have h1 := h0.act (.callSetLog _ true) id
  have h2 := h1.acquire rfl (by simp [Pc.held]) id
  have h3 := h2.act (.setLog _ true) id
  have h4 := h3.act (.callAccept _) id
  have h5 := h4.acquire rfl (by simp [Pc.held]) id
  have h6 := h5.act (.recv _ raw addr) id
  have h7 := h6.acquire rfl (by simp [Pc.held]) id
  obtain ⟨s, hr, hp, hi, -, -⟩ := h7.act (.flag _ _) id
  have hf : Sys.StepE w P bp s 0 .panicked (s.kill 0) := .output (by rw [hp]; exact ⟨rfl, ho⟩)
  refine ⟨_, _, hr.snoc hf (.inl rfl), by simp, (C101_log_poisons ho hp hf).2, fun t ht => ?_⟩
  show (if t = 0 then Pc.dead else s.pc t) = _
  rw [if_neg ht]; exact hi t ht

theorem C101_false : ¬ C101Statement := by
  intro h
  obtain ⟨tr, s, hr, -, hp, -⟩ := C101_any_datagram toy .debug ⟨64, false, true⟩ rfl [] 0
  rw [h toy toy_laws .debug _ tr s hr .socket] at hp
  cases hp

/-- The hypotheses of `C101_deaf` are met, with a second thread that is about to call `accept`. -/
example : ∃ tr s s' tr', Sys.RunE ⟨64, false, true⟩ true toy .debug Sys.init tr s ∧ s.poisoned .socket = true
    ∧ Sys.RunE ⟨64, false, true⟩ true toy .debug s tr' s' ∧ ∃ t, s'.pc t = .aLock := by
  obtain ⟨tr, s, hr, -, hp, hi⟩ := C101_any_datagram toy .debug ⟨64, false, true⟩ rfl [1, 2] 0
  have h1 : s.pc 1 = .idle := hi 1 (by decide)
  exact ⟨tr, s, _, _, hr, hp, .snoc (.nil s) (.step (.act s 1 .tau .aLock s.sock (by rw [h1]; exact .callAccept _)) (by rw [h1]; exact id)) (.inl rfl), 1, rfl⟩

/-- The hypotheses of `C101_quiet_partial` are met where an output fails: a datagram that ends within a connection id, no logging, and the thread panics. -/
example : ∃ tr s, Sys.RunE ⟨64, false, true⟩ false toy .debug Sys.init tr s ∧ s.pc 0 = .dead := by
  have h1 : Sys.RunE ⟨64, false, true⟩ false toy .debug Sys.init _ _ :=
    .snoc (.nil _) (.step (.act _ 0 .tau (.pParse ⟨[0x80, 0, 0, 0, 0, 2, 9, 9, 5, 1, 2, 3], 1⟩) _ (.callPackets _ _)) id) (.inr (by simp [Sys.goto]))
  exact ⟨_, _, h1.snoc (.output (t := 0) (by
    show (nextHeaderFromStreamP ⟨64, false, true⟩ (makeResultStream [0x80, 0, 0, 0, 0, 2, 9, 9, 5, 1, 2, 3])).1.isPanic = true
    decide +kernel)) (.inr (by simp [Sys.kill, Sys.goto])), rfl⟩

end QuicSea
