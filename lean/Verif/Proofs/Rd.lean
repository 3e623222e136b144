import Verif.Model.Basic
/-
General facts about readers.
-/
namespace QuicSea

namespace Rd
theorem pure_apply (a : α) (s : Stream) : (Pure.pure a : Rd α) s = (.ok a, s) := rfl
theorem bind_apply (m : Rd α) (f : α → Rd β) (s : Stream) :
    (m >>= f) s = match m s with
      | (.ok a, s') => f a s'
      | (.err e, s') => (.err e, s')
      | (.panic w, s') => (.panic w, s') := rfl
theorem lift_apply (x : Out α) (s : Stream) : Rd.lift x s = (x, s) := rfl
theorem cloned_apply (s : Stream) : Rd.cloned s = (.ok s, s) := rfl
theorem fail_apply (e : Error) (s : Stream) : (Rd.fail e : Rd α) s = (.err e, s) := rfl
theorem bind_ok {m : Rd α} {f : α → Rd β} {s a s'} (h : m s = (.ok a, s')) : (m >>= f) s = f a s' := by
  simp [bind_apply, h]
theorem bind_err {m : Rd α} {f : α → Rd β} {s e s'} (h : m s = (.err e, s')) : (m >>= f) s = (.err e, s') := by
  simp [bind_apply, h]
theorem bind_panic {m : Rd α} {f : α → Rd β} {s e s'} (h : m s = (.panic e, s')) :
    (m >>= f) s = (.panic e, s') := by
  simp [bind_apply, h]
/-- Inversion of a successful sequence. -/
theorem bind_eq_ok {m : Rd α} {f : α → Rd β} {s b s''} (h : (m >>= f) s = (.ok b, s'')) :
    ∃ a s', m s = (.ok a, s') ∧ f a s' = (.ok b, s'') := by
  rw [bind_apply] at h
  rcases hm : m s with ⟨o, s'⟩
  rw [hm] at h
  cases o <;> simp at h
  exact ⟨_, _, rfl, h⟩
end Rd

@[simp] theorem makeResultStream_nil : makeResultStream [] = [] := rfl
@[simp] theorem makeResultStream_cons (b bs) : makeResultStream (b :: bs) = .ok b :: makeResultStream bs := rfl
@[simp] theorem makeResultStream_append (a b) : makeResultStream (a ++ b) = makeResultStream a ++ makeResultStream b := by
  simp [makeResultStream]
@[simp] theorem makeResultStream_length (a) : (makeResultStream a).length = a.length := by simp [makeResultStream]
theorem makeResultStream_inj {a b : Bytes} (h : makeResultStream a = makeResultStream b) : a = b := by
  induction a generalizing b with
  | nil => cases b <;> simp_all
  | cons x xs ih =>
    cases b with
    | nil => simp at h
    | cons y ys => simp at h; rw [h.1, ih h.2]

/-- `m` reads exactly the bytes `bs` and returns `a`, whatever follows. -/
def Reads (m : Rd α) (bs : Bytes) (a : α) : Prop := ∀ s, m (makeResultStream bs ++ s) = (.ok a, s)

/-- Whenever `m` succeeds, it consumed bytes `bs` related to the result by `R`. -/
def Sound (m : Rd α) (R : α → Bytes → Prop) : Prop :=
  ∀ s a s', m s = (.ok a, s') → ∃ bs, s = makeResultStream bs ++ s' ∧ R a bs

/-- `m` never panics. -/
def NoPanic (m : Rd α) : Prop := ∀ s, (m s).1.isPanic = false

/-- Whatever the outcome, what is left is a suffix of the input. -/
def Shrinks (m : Rd α) : Prop := ∀ s, (m s).2 <:+ s

theorem Reads.pure (a : α) : Reads (Pure.pure a) [] a := fun _ => rfl
theorem Reads.bind {m : Rd α} {f : α → Rd β} {b1 b2 a b} (h1 : Reads m b1 a) (h2 : Reads (f a) b2 b) :
    Reads (m >>= f) (b1 ++ b2) b := by
  intro s
  rw [makeResultStream_append, List.append_assoc, Rd.bind_ok (h1 _), h2]
theorem Reads.bind' {m : Rd α} {f : α → Rd β} {b1 b2 bs a b} (h1 : Reads m b1 a) (h2 : Reads (f a) b2 b)
    (e : bs = b1 ++ b2) : Reads (m >>= f) bs b := e ▸ h1.bind h2
theorem Reads.map {m : Rd α} {f : α → β} {bs a} (h : Reads m bs a) :
    Reads (m >>= fun x => (Pure.pure (f x) : Rd β)) bs (f a) := by
  have := h.bind (Reads.pure (f a)) (f := fun x => (Pure.pure (f x) : Rd β))
  simpa using this
theorem Reads.lift {x : Out α} {a} (h : x = .ok a) : Reads (Rd.lift x) [] a := by
  intro s; simp [Rd.lift, h]
/-- Exactness of what is left when the input is a plain byte string. -/
theorem Reads.run {m : Rd α} {bs a} (h : Reads m bs a) : m (makeResultStream bs) = (.ok a, []) := by
  have := h []
  simpa using this

theorem Sound.pure (a : α) : Sound (Pure.pure a) (fun x bs => x = a ∧ bs = []) := by
  intro s x s' h
  simp [Rd.pure_apply] at h
  exact ⟨[], by simp [h.2], h.1.symm, rfl⟩
theorem Sound.bind {m : Rd α} {f : α → Rd β} {R : α → Bytes → Prop} {R' : α → β → Bytes → Prop} (h1 : Sound m R) (h2 : ∀ a, Sound (f a) (R' a)) :
    Sound (m >>= f) (fun b bs => ∃ a b1 b2, bs = b1 ++ b2 ∧ R a b1 ∧ R' a b b2) := by
  intro s b s'' h
  obtain ⟨a, s', hm, hf⟩ := Rd.bind_eq_ok h
  obtain ⟨b1, e1, r1⟩ := h1 _ _ _ hm
  obtain ⟨b2, e2, r2⟩ := h2 _ _ _ _ hf
  exact ⟨b1 ++ b2, by simp [e1, e2], a, b1, b2, rfl, r1, r2⟩
theorem Sound.mono {m : Rd α} {R R'} (h : Sound m R) (hr : ∀ a bs, R a bs → R' a bs) : Sound m R' := by
  intro s a s' hm
  obtain ⟨bs, e, r⟩ := h _ _ _ hm
  exact ⟨bs, e, hr _ _ r⟩
theorem Sound.fail (e : Error) (R) : Sound (Rd.fail e : Rd α) R := by
  intro s a s' h; simp [Rd.fail] at h
theorem Sound.lift (x : Out α) : Sound (Rd.lift x) (fun a bs => x = .ok a ∧ bs = []) := by
  intro s a s' h
  simp [Rd.lift] at h
  exact ⟨[], by simp [h.2], h.1, rfl⟩

theorem NoPanic.pure (a : α) : NoPanic (Pure.pure a) := fun _ => rfl
theorem NoPanic.bind {m : Rd α} {f : α → Rd β} (h1 : NoPanic m) (h2 : ∀ a, NoPanic (f a)) : NoPanic (m >>= f) := by
  intro s
  rw [Rd.bind_apply]
  have := h1 s
  rcases hm : m s with ⟨o, s'⟩
  rw [hm] at this
  cases o with
  | ok a => exact h2 a s'
  | err e => rfl
  | panic w => simp at this
theorem NoPanic.fail (e : Error) : NoPanic (Rd.fail e : Rd α) := fun _ => rfl
theorem NoPanic.lift {x : Out α} (h : x.isPanic = false) : NoPanic (Rd.lift x) := fun _ => h
theorem NoPanic.cloned : NoPanic Rd.cloned := fun _ => rfl
theorem NoPanic.ite {c : Prop} [Decidable c] {a b : Rd α} (ha : NoPanic a) (hb : NoPanic b) :
    NoPanic (if c then a else b) := by split <;> assumption

theorem Shrinks.pure (a : α) : Shrinks (Pure.pure a) := fun s => List.suffix_refl s
theorem Shrinks.bind {m : Rd α} {f : α → Rd β} (h1 : Shrinks m) (h2 : ∀ a, Shrinks (f a)) : Shrinks (m >>= f) := by
  intro s
  rw [Rd.bind_apply]
  have := h1 s
  rcases hm : m s with ⟨o, s'⟩
  rw [hm] at this
  cases o with
  | ok a => exact (h2 a s').trans this
  | err e => exact this
  | panic w => exact this
theorem Shrinks.fail (e : Error) : Shrinks (Rd.fail e : Rd α) := fun s => List.suffix_refl s
theorem Shrinks.lift (x : Out α) : Shrinks (Rd.lift x) := fun s => List.suffix_refl s
theorem Shrinks.cloned : Shrinks Rd.cloned := fun s => List.suffix_refl s
theorem Shrinks.ite {c : Prop} [Decidable c] {a b : Rd α} (ha : Shrinks a) (hb : Shrinks b) :
    Shrinks (if c then a else b) := by split <;> assumption

theorem nextOr_reads (msg) (b : U8) : Reads (nextOr msg) [b] b := fun _ => rfl
theorem nextOr_sound (msg) : Sound (nextOr msg) (fun b bs => bs = [b]) := by
  intro s a s' h
  match s with
  | [] => simp [nextOr] at h
  | .ok b :: s1 => simp [nextOr] at h; exact ⟨[b], by simp [h.2], by simp [h.1]⟩
  | .error e :: s1 => simp [nextOr] at h
theorem nextOr_noPanic (msg) : NoPanic (nextOr msg) := by
  intro s
  match s with
  | [] => rfl
  | .ok b :: s1 => rfl
  | .error e :: s1 => rfl
theorem nextOr_shrinks (msg) : Shrinks (nextOr msg) := by
  intro s
  match s with
  | [] => exact List.suffix_refl _
  | .ok b :: s1 => exact List.suffix_cons _ _
  | .error e :: s1 => exact List.suffix_cons _ _

end QuicSea
