import Verif.Model.Concurrent
import Verif.Proofs.Routing
/-
Invariants of the interleaved executions.
-/
namespace QuicSea
open Spec

/-- A connection as `accept` creates it. -/
def Created (P : Prims) (c : Connection) : Prop := ∃ dcid len, Connection.new P true .v1 dcid len = .ok c

def StreamNew (P : Prims) (s : StreamState) : Prop := s.queue = [] ∧ Created P s.connection

/-- A connection as it is registered under `key`. -/
def RegisteredAs (P : Prims) (key : U160) (c : Connection) : Prop :=
  (∃ v, key = U160.ofU64 v) ∧ ∃ c0, Created P c0 ∧ c = c0.setScid key 8

/-- What is known at each program counter. -/
def PcOk (P : Prims) (k : Sock) : Pc → Prop
  | .aSendLock d cid => ∃ h, (nextHeaderFromStream (makeResultStream d.data)).1 = .ok h ∧ h.getDestinationId = cid
  | .aSend d cid => ∃ h, (nextHeaderFromStream (makeResultStream d.data)).1 = .ok h ∧ h.getDestinationId = cid
  | .aRandom s => StreamNew P s
  | .aRegLock s key => StreamNew P s ∧ ∃ v, key = U160.ofU64 v
  | .aContains s key => StreamNew P s ∧ ∃ v, key = U160.ofU64 v
  | .aScidLock s key => StreamNew P s ∧ (∃ v, key = U160.ofU64 v) ∧ k.streams key = none
  | .aSetScid s key => StreamNew P s ∧ (∃ v, key = U160.ofU64 v) ∧ k.streams key = none
  | .aInsert s key => s.queue = [] ∧ RegisteredAs P key s.connection ∧ k.streams key = none
  | .pConnLock _ cid => k.streams cid ≠ none
  | .pDecode _ cid => k.streams cid ≠ none
  | _ => True

/-- The connection `newConnectionFor` creates. -/
theorem newConnectionFor_created {P : Prims} {d : Datagram} {c} (h : Sock.newConnectionFor P d = .ok c) : Created P c := by
  unfold Sock.newConnectionFor at h
  obtain ⟨hd, -, h⟩ := Out.bind_eq_ok h
  refine ⟨hd.getDestinationId, hd.getDestinationIdLength.toNat, ?_⟩
  revert h
  cases Connection.new P true .v1 hd.getDestinationId hd.getDestinationIdLength.toNat <;> simp [Out.unwrap]

variable {P : Prims} {bp : Profile}

/-- Actions never add locks. -/
theorem act_held {p k l p' k'} (h : Act P bp p k l p' k') {x} (hx : x ∈ p'.held) : x ∈ p.held := by
  cases h <;> simp_all [Pc.held]

/-- An acquisition adds just the lock. -/
theorem wants_held {p p' : Pc} {l m} (h : p.wants = some (l, m, p')) : ∀ x, x ∈ p'.held ↔ x ∈ p.held ∨ x = (l, m) := by
  cases p <;> simp only [Pc.wants, Option.some.injEq, Prod.mk.injEq, reduceCtorEq] at h <;> obtain ⟨rfl, rfl, rfl⟩ := h <;>
    simp [Pc.held]

/-- What an action does to the table. -/
inductive TableChange (P : Prims) (p : Pc) (k : Sock) (k' : Sock) : Label → Prop where
  | registered (key s) (hp : p = .aInsert s key) (h : k'.streams = tableInsert k.streams key s) :
      TableChange P p k k' (.registered key s)
  | removed (key) (hp : p = .dRemove key) (h : k'.streams = tableRemove k.streams key) : TableChange P p k k' (.removed key)
  | sent (key d x) (hp : p = .aSend d key) (hx : k.streams key = some x)
      (h : k'.streams = tableInsert k.streams key { x with queue := x.queue ++ [d] }) : TableChange P p k k' (.sent key d)
  | none (l) (h : k'.streams = k.streams) (h1 : ∀ key s, l ≠ .registered key s) (h2 : ∀ key, l ≠ .removed key)
      (h3 : ∀ key d, l ≠ .sent key d) : TableChange P p k k' l

theorem act_table {p k l p' k'} (h : Act P bp p k l p' k') : TableChange P p k k' l := by
  cases h with
  | insert k s key => exact .registered _ _ rfl rfl
  | remove k cid => exact .removed _ rfl rfl
  | send k d cid x hx => exact .sent _ _ _ rfl hx rfl
  | _ => exact .none _ rfl (by simp) (by simp) (by simp)

/-- Facts that do not depend on the table unless the table is held. -/
theorem pcOk_frame {k k' : Sock} {p : Pc} (h : PcOk P k p)
    (hk : (∃ m, (Lock.streams, m) ∈ p.held) → ∀ key, (k'.streams key).isNone = (k.streams key).isNone) : PcOk P k' p := by
  have hn : (∃ m, (Lock.streams, m) ∈ p.held) → ∀ key, k.streams key = none ↔ k'.streams key = none := by
    intro hm key
    have := hk hm key
    cases h1 : k.streams key <;> cases h2 : k'.streams key <;> simp_all
  cases p with
  | aScidLock s key => exact ⟨h.1, h.2.1, (hn ⟨.write, by simp [Pc.held]⟩ key).mp h.2.2⟩
  | aSetScid s key => exact ⟨h.1, h.2.1, (hn ⟨.write, by simp [Pc.held]⟩ key).mp h.2.2⟩
  | aInsert s key => exact ⟨h.1, h.2.1, (hn ⟨.write, by simp [Pc.held]⟩ key).mp h.2.2⟩
  | pConnLock d cid => exact fun e => h ((hn ⟨.read, by simp [Pc.held]⟩ cid).mpr e)
  | pDecode d cid => exact fun e => h ((hn ⟨.read, by simp [Pc.held]⟩ cid).mpr e)
  | _ => exact h

/-- What an action establishes. -/
theorem act_pcOk {p k l p' k'} (h : Act P bp p k l p' k') (hp : PcOk P k p) : PcOk P k' p' := by
  cases h with
  | route k d hd he => exact ⟨hd, he, rfl⟩
  | new k d c hc => exact ⟨rfl, newConnectionFor_created hc⟩
  | random k s srcId => exact ⟨hp, _, rfl⟩
  | fresh k s key h => exact ⟨hp.1, hp.2, h⟩
  | taken k s key x h => exact hp.1
  | setScid k s key => exact ⟨hp.1.1, ⟨hp.2.1, _, hp.1.2, rfl⟩, hp.2.2⟩
  | packetsGet k d cid x h => intro e; rw [h] at e; cases e
  | _ => trivial

theorem wants_pcOk {k : Sock} {p p' : Pc} {l m} (h : p.wants = some (l, m, p')) (hp : PcOk P k p) : PcOk P k p' := by
  cases p <;> simp only [Pc.wants, Option.some.injEq, Prod.mk.injEq, reduceCtorEq] at h <;> obtain ⟨-, -, rfl⟩ := h <;>
    first | exact hp | trivial

/-- The invariant. -/
structure Inv (P : Prims) (s : Sys) : Prop where
  excl : ∀ t t' l m m', t ≠ t' → (l, m) ∈ (s.pc t).held → (l, m') ∈ (s.pc t').held → m = .read ∧ m' = .read
  pcOk : ∀ t, PcOk P s.sock (s.pc t)
  table : ∀ key x, s.sock.streams key = some x → RegisteredAs P key x.connection
  clean : ∀ l, s.poisoned l = false

/-- A thread that panics holds no lock for writing. -/
theorem panics_held {p k} (h : Panics P bp p k) (hp : ∀ d, p = .aPrint d true → False) : ∀ l, (l, Mode.write) ∉ p.held := by
  intro l
  cases h with
  | print k d w h => exact absurd rfl (fun e => hp d e)
  | _ => simp [Pc.held]

theorem panics_not_print {p k} (h : Panics P bp p k) (d) : p ≠ .aPrint d true := by
  rintro rfl
  cases h with
  | print _ _ w h =>
    have := nextHeader_noPanic (makeResultStream d.data)
    rw [h] at this
    cases this

theorem goto_pc (s : Sys) (t t' : Nat) (p : Pc) : (s.goto t p).pc t' = if t' = t then p else s.pc t' := rfl

theorem inv_init : Inv P Sys.init where
  excl := by intro t t' l m m' _ h; cases h
  pcOk := fun _ => trivial
  table := by intro key x h; cases h
  clean := fun _ => rfl

theorem inv_kill {s : Sys} (hi : Inv P s) (t : Nat) (hw : ∀ l, (l, Mode.write) ∉ (s.pc t).held) : Inv P (s.kill t) where
  excl := by
    intro t1 t2 l m m' hne h1 h2
    have e1 : (s.kill t).pc t1 = if t1 = t then .dead else s.pc t1 := rfl
    have e2 : (s.kill t).pc t2 = if t2 = t then .dead else s.pc t2 := rfl
    rw [e1] at h1; rw [e2] at h2
    split at h1
    · cases h1
    · split at h2
      · cases h2
      · exact hi.excl t1 t2 l m m' hne h1 h2
  pcOk := by
    intro t1
    have e1 : (s.kill t).pc t1 = if t1 = t then .dead else s.pc t1 := rfl
    rw [e1]
    split
    · trivial
    · exact hi.pcOk t1
  table := hi.table
  clean := by
    intro l
    have e : (s.kill t).poisoned l = (s.poisoned l || decide ((l, Mode.write) ∈ (s.pc t).held)) := rfl
    rw [e, hi.clean l, Bool.false_or, decide_eq_false (hw l)]

theorem inv_step {s : Sys} {t l s'} (hi : Inv P s) (h : Sys.Step P bp s t l s') : Inv P s' := by
  cases h with
  | act _ p k ha =>
    have ht := act_table ha
    have hpc : ∀ t1, ({ s.goto t p with sock := k } : Sys).pc t1 = if t1 = t then p else s.pc t1 := fun _ => rfl
    refine ⟨?_, ?_, ?_, hi.clean⟩
    · intro t1 t2 l m m' hne h1 h2
      rw [hpc] at h1 h2
      have g1 : (l, m) ∈ (s.pc t1).held := by
        split at h1
        · rename_i e; rw [e]; exact act_held ha h1
        · exact h1
      have g2 : (l, m') ∈ (s.pc t2).held := by
        split at h2
        · rename_i e; rw [e]; exact act_held ha h2
        · exact h2
      exact hi.excl t1 t2 l m m' hne g1 g2
    · intro t1
      rw [hpc]
      split
      · exact act_pcOk ha (hi.pcOk t)
      · rename_i hne
        refine pcOk_frame (hi.pcOk t1) ?_
        rintro ⟨m, hm⟩ key
        show (k.streams key).isNone = _
        cases ht with
        | registered key' st hp h =>
          have := hi.excl t t1 .streams .write m (Ne.symm hne) (by rw [hp]; simp [Pc.held]) hm
          cases this.1
        | removed key' hp h =>
          have := hi.excl t t1 .streams .write m (Ne.symm hne) (by rw [hp]; simp [Pc.held]) hm
          cases this.1
        | sent key' d x hp hx h =>
          rw [h, tableInsert]
          split
          · rename_i e; rw [e, hx]; rfl
          · rfl
        | none _ h => rw [h]
    · intro key x hx
      have hx : k.streams key = some x := hx
      cases ht with
      | registered key' st hp h =>
        rw [h, tableInsert] at hx
        split at hx
        · rename_i e
          cases hx
          have := hi.pcOk t
          rw [hp] at this
          rw [e]
          exact this.2.1
        · exact hi.table key x hx
      | removed key' hp h =>
        rw [h, tableRemove] at hx
        split at hx
        · cases hx
        · exact hi.table key x hx
      | sent key' d x' hp hx' h =>
        rw [h, tableInsert] at hx
        split at hx
        · rename_i e
          cases hx
          rw [e]
          exact hi.table key' x' hx'
        · exact hi.table key x hx
      | none _ h => rw [h] at hx; exact hi.table key x hx
  | acquire l m p hw hf hp =>
    refine ⟨?_, ?_, hi.table, hi.clean⟩
    · intro t1 t2 l' m1 m2 hne h1 h2
      rw [goto_pc] at h1 h2
      by_cases e1 : t1 = t
      · rw [if_pos e1] at h1
        have e2 : t2 ≠ t := fun e => hne (e1.trans e.symm)
        rw [if_neg e2] at h2
        rcases (wants_held hw _).mp h1 with g | g
        · exact hi.excl t1 t2 l' m1 m2 hne (by rw [e1]; exact g) h2
        · cases g
          exact hf t2 m2 h2
      · rw [if_neg e1] at h1
        by_cases e2 : t2 = t
        · rw [if_pos e2] at h2
          rcases (wants_held hw _).mp h2 with g | g
          · exact hi.excl t1 t2 l' m1 m2 hne h1 (by rw [e2]; exact g)
          · cases g
            exact (hf t1 m1 h1).symm
        · rw [if_neg e2] at h2
          exact hi.excl t1 t2 l' m1 m2 hne h1 h2
    · intro t1
      rw [goto_pc]
      split
      · exact wants_pcOk hw (hi.pcOk t)
      · exact hi.pcOk t1
  | poisoned l m p hw hf hp => rw [hi.clean l] at hp; cases hp
  | panic h => exact inv_kill hi t (panics_held h (fun d => panics_not_print h d))

theorem inv_run {s tr s'} (hi : Inv P s) (h : Sys.Run P bp s tr s') : Inv P s' := by
  induction h with
  | nil => exact hi
  | snoc _ hs ih => exact inv_step ih hs

theorem inv_reachable {tr s} (h : Sys.Run P bp Sys.init tr s) : Inv P s := inv_run inv_init h

end QuicSea
