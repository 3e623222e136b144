import Verif.Model.Tools
/-
C106: the hexadecimal dump shows the file.
-/
namespace Spec
open QuicSea (Bytes U8)

/-- Value of a hexadecimal digit. -/
def digitValue (c : Char) : Option Nat :=
  if '0' ≤ c ∧ c ≤ '9' then some (c.toNat - '0'.toNat) else if 'a' ≤ c ∧ c ≤ 'f' then some (c.toNat - 'a'.toNat + 10) else none

/-- The text, read as a hexadecimal dump, shows these bytes: blanks and ends of lines do not count, two digits are a byte. -/
inductive Shows : List Char → Bytes → Prop where
  | done : Shows [] []
  | blank {c t bs} : c = ' ' ∨ c = '\n' → Shows t bs → Shows (c :: t) bs
  | byte {c d t bs} {b : U8} {h l : Nat} : digitValue c = some h → digitValue d = some l → b.toNat = 16 * h + l → Shows t bs → Shows (c :: d :: t) (b :: bs)

/-- The lines of a text. -/
def linesOf : List Char → List (List Char)
  | [] => []
  | c :: t => if c = '\n' then [] :: linesOf t else
    match linesOf t with
    | [] => [[c]]
    | l :: ls => (c :: l) :: ls
end Spec

namespace QuicSea
open Spec Tools

theorem digit_value (n : Nat) (h : n < 16) : digitValue (hexDigit n) = some n := by
  have : ∀ n : Fin 16, digitValue (hexDigit n) = some n.val := by decide +kernel
  exact this ⟨n, h⟩

theorem _root_.Spec.Shows.append {a b : List Char} {x y : Bytes} (h : Shows a x) (h' : Shows b y) : Shows (a ++ b) (x ++ y) := by
  induction h with
  | done => exact h'
  | blank c _ ih => exact .blank c ih
  | byte c d e _ ih => exact .byte c d e ih

theorem blank_no_digit {c : Char} (h : c = ' ' ∨ c = '\n') : digitValue c = none := by
  rcases h with rfl | rfl <;> decide +kernel

/-- A text shows at most one list of bytes. -/
theorem _root_.Spec.Shows.unique {t : List Char} {x y : Bytes} (h : Shows t x) (h' : Shows t y) : x = y := by
  induction h generalizing y with
  | done => cases h'; rfl
  | blank c _ ih =>
    cases h' with
    | blank _ h' => exact ih h'
    | byte d => rw [blank_no_digit c] at d; cases d
  | byte c d e _ ih =>
    cases h' with
    | blank b => rw [blank_no_digit b] at c; cases c
    | byte c' d' e' h' =>
      rw [c] at c'; rw [d] at d'
      cases c'; cases d'
      rw [ih h', BitVec.eq_of_toNat_eq (e.trans e'.symm)]

theorem hex_shows (bs : Bytes) : Shows (hex bs) bs := by
  induction bs with
  | nil => exact .done
  | cons b bs ih =>
    have := b.isLt
    exact .byte (digit_value _ (by omega)) (digit_value _ (by omega)) (by omega) ih

/-- The lines joined two by two. -/
def pairUp : List (List Char) → List (List Char)
  | [] => []
  | [x] => [x]
  | x :: y :: l => (x ++ ' ' :: y) :: pairUp l

theorem formatted_eq : (ls : List (List Char)) → formattedLines ls = pairUp ls
  | [] => rfl
  | [x] => rfl
  | [x, y] => by simp [formattedLines, everyOther, pairUp]
  | x :: y :: z :: l => by
    have ih := formatted_eq (z :: l)
    unfold formattedLines at ih ⊢
    simp only [List.length_cons, List.tail_cons, everyOther, pairUp] at ih ⊢
    have e2 : (l.length + 1 + 1 + 1) % 2 = (l.length + 1) % 2 := by omega
    rw [e2]
    simp only [List.zip_cons_cons, List.map_cons, List.getLast?_cons_cons, List.cons_append]
    rw [← ih]
    split <;> rfl

theorem pairUp_shows : (ls : List Bytes) → Shows (join (pairUp (ls.map hex)) ++ ['\n']) ls.flatten
  | [] => .blank (.inr rfl) .done
  | [x] => by
    have := (hex_shows x).append (b := ['\n']) (.blank (.inr rfl) .done)
    simpa [pairUp, join] using this
  | [x, y] => by
    have := (hex_shows x).append (.blank (.inl rfl) ((hex_shows y).append (b := ['\n']) (.blank (.inr rfl) .done)))
    simpa [pairUp, join] using this
  | x :: y :: z :: l => by
    have ih := pairUp_shows (z :: l)
    have := (hex_shows x).append (.blank (.inl rfl) ((hex_shows y).append (.blank (.inr rfl) ih)))
    have e : ∃ a r, pairUp ((z :: l).map hex) = a :: r := by
      cases l with
      | nil => exact ⟨_, _, rfl⟩
      | cons w l => exact ⟨_, _, rfl⟩
    obtain ⟨a, r, e⟩ := e
    have hj : join (pairUp ((x :: y :: z :: l).map hex)) = (hex x ++ ' ' :: hex y) ++ '\n' :: join (pairUp ((z :: l).map hex)) := by
      show join ((hex x ++ ' ' :: hex y) :: pairUp ((z :: l).map hex)) = _
      rw [e]; rfl
    rw [hj]
    simpa using this

/-- The pieces of sixteen bytes. -/
theorem chunks_flatten (k : Nat) (data : Bytes) (h : data.length ≤ 16 * k) :
    ((List.range k).map fun i => (data.drop (16 * i)).take 16).flatten = data := by
  induction k generalizing data with
  | zero => rw [List.eq_nil_of_length_eq_zero (by omega : data.length = 0)]; rfl
  | succ k ih =>
    rw [List.range_succ_eq_map, List.map_cons, List.map_map, List.flatten_cons]
    have := ih (data.drop 16) (by rw [List.length_drop]; omega)
    have e : ((fun i => List.take 16 (List.drop (16 * i) data)) ∘ Nat.succ) = fun i => ((data.drop 16).drop (16 * i)).take 16 := by
      funext i
      simp only [Function.comp, List.drop_drop]
      congr 2
      omega
    rw [e, this, Nat.mul_zero, List.drop_zero, List.take_append_drop]

/-- C106. The dump of any file shows the bytes of that file. -/
theorem C106_shows (data : Bytes) : Shows (reformat data) data := by
  unfold reformat
  rw [formatted_eq]
  have := pairUp_shows ((List.range ((data.length + 15) / 16)).map fun i => (data.drop (16 * i)).take 16)
  rw [List.map_map, chunks_flatten _ data (by omega)] at this
  exact this

/-- C106. It shows nothing else, so files with the same dump are the same. -/
theorem C106_faithful (data : Bytes) (other : Bytes) (h : Shows (reformat data) other) : other = data := Shows.unique h (C106_shows data)
theorem C106_injective (a b : Bytes) (h : reformat a = reformat b) : a = b := Shows.unique (C106_shows a) (h ▸ C106_shows b)

theorem hex_length (bs : Bytes) : (hex bs).length = 2 * bs.length := by
  induction bs with
  | nil => rfl
  | cons b bs ih =>
    have : hex (b :: bs) = hexDigit (b.toNat / 16) :: hexDigit (b.toNat % 16) :: hex bs := rfl
    rw [this]; simp only [List.length_cons, ih]; omega
theorem digit_no_nl (n : Nat) : hexDigit n ≠ '\n' := by
  unfold hexDigit; split <;> decide
theorem hex_no_nl (bs : Bytes) : '\n' ∉ hex bs := by
  induction bs with
  | nil => exact List.not_mem_nil
  | cons b bs ih =>
    have : hex (b :: bs) = hexDigit (b.toNat / 16) :: hexDigit (b.toNat % 16) :: hex bs := rfl
    rw [this]
    simp only [List.mem_cons, not_or]
    exact ⟨(digit_no_nl _).symm, (digit_no_nl _).symm, ih⟩

theorem digit_no_blank (n : Nat) : hexDigit n ≠ ' ' := by
  unfold hexDigit; split <;> decide
theorem hex_no_blank (bs : Bytes) : ' ' ∉ hex bs := by
  induction bs with
  | nil => exact List.not_mem_nil
  | cons b bs ih =>
    have : hex (b :: bs) = hexDigit (b.toNat / 16) :: hexDigit (b.toNat % 16) :: hex bs := rfl
    rw [this]
    simp only [List.mem_cons, not_or]
    exact ⟨(digit_no_blank _).symm, (digit_no_blank _).symm, ih⟩

theorem linesOf_one {l : List Char} (h : '\n' ∉ l) (t : List Char) : linesOf (l ++ '\n' :: t) = l :: linesOf t := by
  induction l with
  | nil => simp [linesOf]
  | cons c l ih =>
    simp only [List.mem_cons, not_or] at h
    rw [List.cons_append, linesOf, if_neg (Ne.symm h.1), ih h.2]
theorem linesOf_join : (ls : List (List Char)) → (∀ l ∈ ls, '\n' ∉ l) → ls ≠ [] → linesOf (join ls ++ ['\n']) = ls
  | [], _, h => absurd rfl h
  | [x], h, _ => linesOf_one (h x List.mem_cons_self) []
  | x :: y :: l, h, _ => by
    show linesOf (x ++ '\n' :: join (y :: l) ++ ['\n']) = _
    rw [List.append_assoc, List.cons_append, linesOf_one (h x List.mem_cons_self), linesOf_join (y :: l) (fun l hl => h l (List.mem_cons_of_mem _ hl)) (by simp)]

/-- What line `i` of a dump has. -/
def rowOf (data : Bytes) (i : Nat) : List Char :=
  let row := (data.drop (32 * i)).take 32
  hex (row.take 16) ++ if 16 < row.length then ' ' :: hex (row.drop 16) else []

theorem pairUp_rows (k : Nat) (data : Bytes) (h1 : data.length ≤ 32 * k) (h2 : 32 * k < data.length + 32) :
    pairUp (lines data) = (List.range k).map (rowOf data) := by
  induction k generalizing data with
  | zero => rw [List.eq_nil_of_length_eq_zero (by omega : data.length = 0)]; rfl
  | succ k ih =>
    by_cases h : data.length ≤ 16
    · have hk : k = 0 := by omega
      subst hk
      have hl : (data.length + 15) / 16 = 1 := by omega
      unfold lines
      rw [hl]
      simp [pairUp, rowOf, List.take_of_length_le, h, show ¬ 16 < data.length by omega, show data.length ≤ 32 by omega]
    · have hd := ih (data.drop 32) (by rw [List.length_drop]; omega) (by rw [List.length_drop]; omega)
      obtain ⟨n, hn⟩ : ∃ n, (data.length + 15) / 16 = n + 2 := ⟨(data.length + 15) / 16 - 2, by omega⟩
      have hn' : ((data.drop 32).length + 15) / 16 = n := by rw [List.length_drop]; omega
      have e : lines data = hex (data.take 16) :: hex ((data.drop 16).take 16) :: lines (data.drop 32) := by
        unfold lines
        rw [hn, hn', List.range_succ_eq_map, List.range_succ_eq_map]
        simp only [List.map_cons, List.map_map, Nat.mul_zero, List.drop_zero, List.drop_drop]
        congr 2
        refine List.map_congr_left fun i _ => ?_
        simp only [Function.comp]
        rw [show 16 * (Nat.succ (Nat.succ i)) = 32 + 16 * i by omega]
      rw [e, pairUp, hd, List.range_succ_eq_map, List.map_cons, List.map_map]
      congr 1
      · unfold rowOf
        simp only [Nat.mul_zero, List.drop_zero, List.take_take]
        rw [if_pos (by rw [List.length_take]; omega), List.drop_take]
        rfl
      · refine List.map_congr_left fun i _ => ?_
        simp only [Function.comp, rowOf, List.drop_drop]
        rw [show 32 * i.succ = 32 + 32 * i by omega]

theorem reformat_lines (data : Bytes) (h : data ≠ []) : linesOf (reformat data) = (List.range ((data.length + 31) / 32)).map (rowOf data) := by
  have hp : 0 < data.length := List.length_pos_iff.2 h
  unfold reformat
  rw [formatted_eq, pairUp_rows ((data.length + 31) / 32) data (by omega) (by omega)]
  refine linesOf_join _ ?_ ?_
  · intro l hl
    obtain ⟨i, -, rfl⟩ := List.mem_map.1 hl
    unfold rowOf
    simp only [List.mem_append, not_or]
    refine ⟨hex_no_nl _, ?_⟩
    split
    · simp only [List.mem_cons, not_or]; exact ⟨by decide, hex_no_nl _⟩
    · exact List.not_mem_nil
  · intro e
    have := congrArg List.length e
    rw [List.length_map, List.length_range, List.length_nil] at this
    omega

/-- C106, the layout: a file of `n` bytes gives one line for each 32 bytes and one for the rest; each line shows its 32 bytes (the last the rest) with a blank after the first sixteen,
if there are more, and nowhere else. -/
theorem C106_layout (data : Bytes) (h : data ≠ []) : (linesOf (reformat data)).length = (data.length + 31) / 32 ∧
    ∀ i line, (linesOf (reformat data))[i]? = some line → ∃ row : Bytes, row = (data.drop (32 * i)).take 32 ∧ Shows line row ∧
      ∀ j, line[j]? = some ' ' ↔ j = 32 ∧ 16 < row.length := by
  rw [reformat_lines data h]
  refine ⟨by simp, fun i line hl => ⟨_, rfl, ?_⟩⟩
  rw [List.getElem?_map, Option.map_eq_some_iff] at hl
  obtain ⟨i', hi, rfl⟩ := hl
  rw [List.getElem?_eq_some_iff] at hi
  obtain ⟨_, hi⟩ := hi
  rw [List.getElem_range] at hi
  subst hi
  generalize hrow : (data.drop (32 * i)).take 32 = row
  have hr : rowOf data i = hex (row.take 16) ++ if 16 < row.length then ' ' :: hex (row.drop 16) else [] := by unfold rowOf; simp only [hrow]
  rw [hr]
  have nb : ∀ (bs : Bytes) (j : Nat), (hex bs)[j]? ≠ some ' ' := by
    intro bs j he
    exact hex_no_blank bs (List.mem_of_getElem? he)
  constructor
  · split
    · have := (hex_shows (row.take 16)).append (.blank (.inl rfl) (hex_shows (row.drop 16)))
      rwa [List.take_append_drop] at this
    · rw [List.append_nil, List.take_of_length_le (by omega)]; exact hex_shows _
  · intro j
    split
    · rename_i hlt
      have hlen : (hex (row.take 16)).length = 32 := by rw [hex_length, List.length_take]; omega
      rw [List.getElem?_append, hlen]
      split
      · constructor
        · intro e; exact absurd e (nb _ _)
        · rintro ⟨rfl, -⟩; omega
      · cases hj : j - 32 with
        | zero => simp; omega
        | succ m =>
          rw [List.getElem?_cons_succ]
          constructor
          · intro e; exact absurd e (nb _ _)
          · rintro ⟨rfl, -⟩; omega
    · rename_i hlt
      rw [List.append_nil]
      constructor
      · intro e; exact absurd e (nb _ _)
      · rintro ⟨-, h⟩; exact absurd h hlt

/-- Non-trivial instance: 50 bytes, two lines. -/
example : (linesOf (reformat (List.replicate 50 0x7f))).map (·.length) = [65, 37] ∧ Shows (reformat (List.replicate 50 0x7f)) (List.replicate 50 0x7f) :=
  ⟨by decide +kernel, C106_shows _⟩

end QuicSea
