import Verif.Model.Alloc
/-
C90: the allocation functions are sound.
-/
namespace Spec
open QuicSea

/-- What a safe function that returns `Box<[T]>` of `len` elements may do: panic, or return `len` values of `T`. -/
def SoundBox (t : RTy) (len : Nat) : Boxed → Prop
  | .box elems => elems.length = len ∧ ∀ e ∈ elems, e.length = t.size ∧ t.valid e
  | .panic _ => True
  | .undefined _ => False

/-- `u8`: one initialised byte. -/
def tyU8 : RTy := ⟨1, 1, fun c => ∃ b : U8, c = [some b]⟩
/-- `u32`: four initialised bytes. -/
def tyU32 : RTy := ⟨4, 4, fun c => ∃ a b d e : U8, c = [some a, some b, some d, some e]⟩
/-- `NonZeroU8`. -/
def tyNonZeroU8 : RTy := ⟨1, 1, fun c => ∃ b : U8, b ≠ 0 ∧ c = [some b]⟩
/-- `()`. -/
def tyUnit : RTy := ⟨0, 1, fun c => c = []⟩
end Spec

namespace QuicSea
open Spec

/-- C90, full statement: whatever the type, the length and the state of the system, the two functions are sound. -/
def C90Statement : Prop := ∀ (memory : Bool) (t : RTy) (len : Nat), SoundBox t len (callocBoxBuffer memory t len) ∧ SoundBox t len (allocBoxBuffer memory t len)

theorem elements_replicate (size n : Nat) (x : Cell) : elements size n (List.replicate (size * n) x) = List.replicate n (List.replicate size x) := by
  induction n with
  | zero => rfl
  | succ n ih =>
    rw [elements, List.take_replicate, List.drop_replicate, Nat.mul_succ, Nat.add_sub_cancel, ih, List.replicate_succ]
    congr 2
    omega

/-- C90: exactly what the functions do. -/
theorem C90_exact (zeroed memory : Bool) (t : RTy) (len : Nat) :
    (len = 0 → boxBuffer zeroed memory t len = .box []) ∧
    (len ≠ 0 → 2 ^ 63 - t.align < t.size * len → ∃ w, boxBuffer zeroed memory t len = .panic w) ∧
    (len ≠ 0 → t.size * len ≤ 2 ^ 63 - t.align → t.size = 0 ∨ memory = false → ∃ w, boxBuffer zeroed memory t len = .undefined w) ∧
    (len ≠ 0 → t.size * len ≤ 2 ^ 63 - t.align → t.size ≠ 0 → memory = true →
      boxBuffer zeroed memory t len = .box (List.replicate len (List.replicate t.size (if zeroed then some 0 else none)))) := by
  refine ⟨fun h => by simp [boxBuffer, h], fun h h' => ?_, fun h h' h'' => ?_, fun h h' h0 hm => ?_⟩
  · exact ⟨_, by rw [boxBuffer, if_neg h, layoutArray, if_neg (by omega)]⟩
  · rw [boxBuffer, if_neg h, layoutArray, if_pos h']
    dsimp only
    by_cases h0 : t.size * len = 0
    · exact ⟨_, by rw [rawAlloc, if_pos h0]⟩
    · have : memory = false := by
        rcases h'' with h'' | h''
        · rw [h'', Nat.zero_mul] at h0; exact absurd rfl h0
        · exact h''
      exact ⟨_, by rw [rawAlloc, if_neg h0, this]; rfl⟩
  · have hz : t.size * len ≠ 0 := Nat.mul_ne_zero h0 h
    rw [boxBuffer, if_neg h, layoutArray, if_pos h']
    dsimp only
    rw [rawAlloc, if_neg hz, hm, if_pos rfl]
    dsimp only
    rw [elements_replicate]

/-- C90 fails for every type of size 0, and for every type when memory runs out: undefined behaviour. -/
theorem C90_undefined (zeroed memory : Bool) (t : RTy) (len : Nat) (h : len ≠ 0) (hl : t.size * len ≤ 2 ^ 63 - t.align)
    (hm : t.size = 0 ∨ memory = false) : ¬ SoundBox t len (boxBuffer zeroed memory t len) := by
  obtain ⟨w, e⟩ := (C90_exact zeroed memory t len).2.2.1 h hl hm
  rw [e]
  exact id
example : ¬ SoundBox tyUnit 3 (callocBoxBuffer true tyUnit 3) := C90_undefined true true _ _ (by decide) (by decide) (.inl rfl)
example : ¬ SoundBox tyU32 3 (callocBoxBuffer false tyU32 3) := C90_undefined true false _ _ (by decide) (by decide) (.inr rfl)

/-- C90 fails for `alloc_box_buffer` for every type that does not admit uninitialised memory. -/
theorem C90_uninitialised (memory : Bool) (t : RTy) (len : Nat) (h : len ≠ 0) (hl : t.size * len ≤ 2 ^ 63 - t.align)
    (hv : ¬ t.valid (List.replicate t.size none)) : ¬ SoundBox t len (allocBoxBuffer memory t len) := by
  intro hs
  by_cases hm : t.size = 0 ∨ memory = false
  · exact C90_undefined false memory t len h hl hm hs
  · have e := (C90_exact false memory t len).2.2.2 h hl (fun h => hm (.inl h)) (by cases memory <;> simp_all)
    rw [allocBoxBuffer, e] at hs
    exact hv ((hs.2 _ (List.mem_replicate.mpr ⟨h, rfl⟩)).2)
example : ¬ SoundBox tyU8 4096 (allocBoxBuffer true tyU8 4096) := C90_uninitialised true _ _ (by decide) (by decide) (by rintro ⟨b, h⟩; cases h)

theorem C90_false : ¬ C90Statement := fun h => C90_uninitialised true tyU8 1 (by decide) (by decide) (by rintro ⟨b, h⟩; cases h) (h true tyU8 1).2

/-- C90 for `calloc_box_buffer`, types of which all bits zero is a value and that are not of size 0, when memory does not run out.
Missing for the full statement: all other cases, for which it is false (`C90_undefined`, `C90_uninitialised`). -/
theorem C90_calloc_partial (t : RTy) (len : Nat) (h0 : t.size ≠ 0) (hz : t.valid (List.replicate t.size (some 0))) :
    SoundBox t len (callocBoxBuffer true t len) := by
  obtain ⟨e1, e2, _, e4⟩ := C90_exact true true t len
  by_cases h : len = 0
  · rw [callocBoxBuffer, e1 h]
    exact ⟨h.symm, by simp⟩
  · by_cases hl : t.size * len ≤ 2 ^ 63 - t.align
    · rw [callocBoxBuffer, e4 h hl h0 rfl]
      refine ⟨by simp, ?_⟩
      intro e he
      obtain ⟨-, rfl⟩ := List.mem_replicate.mp he
      exact ⟨by simp, hz⟩
    · obtain ⟨w, e⟩ := e2 h (by omega)
      rw [callocBoxBuffer, e]
      trivial
/-- `u32` is such a type, `NonZeroU8` is not, and for it the function is unsound. -/
example : SoundBox tyU32 1000 (callocBoxBuffer true tyU32 1000) := C90_calloc_partial tyU32 1000 (by decide) ⟨0, 0, 0, 0, rfl⟩
example : ¬ SoundBox tyNonZeroU8 1 (callocBoxBuffer true tyNonZeroU8 1) := by
  rintro ⟨_, h⟩
  obtain ⟨_, b, hb, e⟩ := h [some 0] (by decide)
  cases e
  exact hb rfl

end QuicSea
