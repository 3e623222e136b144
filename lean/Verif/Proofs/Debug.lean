import Verif.Model.Debug
/-
What `Dbg.render` prints can be read back.
-/
namespace Spec
/-- Printable ASCII. -/
def printable (c : Char) : Bool := 32 ≤ c.toNat && c.toNat ≤ 126
end Spec

namespace QuicSea
open Spec

/-! ## decimal numbers -/

/-- The value of a list of digits. -/
def undecimal (cs : List Char) : Nat := cs.foldl (fun a c => 10 * a + (c.toNat - 48)) 0

theorem digit_toNat : ∀ n, n < 10 → (Char.ofNat (48 + n)).toNat = 48 + n := by decide
theorem digit_isDigit : ∀ n, n < 10 → (Char.ofNat (48 + n)).isDigit = true := by decide

theorem undecimal_loop (fuel : Nat) : ∀ n, n < fuel → undecimal (decimalLoop fuel n) = n := by
  induction fuel with
  | zero => intro n h; omega
  | succ fuel ih =>
    intro n h
    unfold decimalLoop
    by_cases hn : n < 10
    · rw [if_pos hn]; simp [undecimal, digit_toNat n hn]
    · rw [if_neg hn, undecimal, List.foldl_append, ← undecimal, ih (n / 10) (by omega)]
      simp only [List.foldl_cons, List.foldl_nil, digit_toNat _ (Nat.mod_lt n (by omega : 0 < 10))]
      omega
theorem undecimal_decimal (n : Nat) : undecimal (decimal n) = n := undecimal_loop _ _ (Nat.lt_succ_self n)
theorem decimal_inj {a b : Nat} (h : decimal a = decimal b) : a = b := by
  rw [← undecimal_decimal a, h, undecimal_decimal]
theorem decimalLoop_digits (fuel : Nat) : ∀ n, ∀ c ∈ decimalLoop fuel n, c.isDigit = true := by
  induction fuel with
  | zero => intro n c h; cases h
  | succ fuel ih =>
    intro n c h
    unfold decimalLoop at h
    by_cases hn : n < 10
    · rw [if_pos hn] at h; simp at h; subst h; exact digit_isDigit n hn
    · rw [if_neg hn, List.mem_append] at h
      rcases h with h | h
      · exact ih _ c h
      · simp at h; subst h; exact digit_isDigit _ (Nat.mod_lt n (by omega))
theorem decimal_digits (n : Nat) : ∀ c ∈ decimal n, c.isDigit = true := decimalLoop_digits _ n
theorem decimal_ne_nil (n : Nat) : decimal n ≠ [] := by
  unfold decimal decimalLoop; split <;> simp

/-! ## names -/

/-- A character of an identifier. -/
def isIdent (c : Char) : Bool := c.isAlphanum || c == '_'
/-- A name as Rust has them: identifier characters, beginning with no digit. -/
def isName (s : String) : Bool := s.toList.all isIdent && !(s.toList.head?.any Char.isDigit) && !s.toList.isEmpty

/-- A text that does not begin with an identifier character. -/
def Stops (r : List Char) : Prop := ∀ c ∈ r.head?, isIdent c = false

theorem token {a b r r' : List Char} (ha : a.all isIdent) (hb : b.all isIdent) (hr : Stops r) (hr' : Stops r')
    (h : a ++ r = b ++ r') : a = b ∧ r = r' := by
  induction a generalizing b with
  | nil =>
    cases b with
    | nil => exact ⟨rfl, h⟩
    | cons c b =>
      have := hr c (by simp at h; simp [h])
      simp [this] at hb
  | cons c a ih =>
    cases b with
    | nil =>
      have := hr' c (by simp at h; simp [← h])
      simp [this] at ha
    | cons c' b =>
      simp only [List.cons_append, List.cons.injEq] at h
      simp only [List.all_cons, Bool.and_eq_true] at ha hb
      obtain ⟨h1, h2⟩ := ih ha.2 hb.2 h.2
      exact ⟨by rw [h.1, h1], h2⟩

theorem ident_of_digit {c : Char} (h : c.isDigit = true) : isIdent c = true := by simp [isIdent, Char.isAlphanum, h]
theorem decimal_ident (n : Nat) : (decimal n).all isIdent := by
  rw [List.all_eq_true]; exact fun c hc => ident_of_digit (decimal_digits n c hc)
theorem name_ident {s : String} (h : isName s = true) : s.toList.all isIdent := by
  simp only [isName, Bool.and_eq_true] at h; exact h.1.1
theorem name_ne_decimal {s : String} (h : isName s = true) (n : Nat) : s.toList ≠ decimal n := by
  intro he
  rcases hd : decimal n with _ | ⟨c, t⟩
  · exact decimal_ne_nil n hd
  · have := decimal_digits n c (by rw [hd]; simp)
    simp [isName, he, hd, this] at h
theorem name_ne_nil {s : String} (h : isName s = true) : s.toList ≠ [] := by
  intro he; simp [isName, he] at h

/-! ## strings -/

theorem escape_cases (c : Char) :
    (∃ e, escape c = ['\\', e] ∧ (c = '"' ∧ e = '"' ∨ c = '\\' ∧ e = '\\' ∨ c = '\n' ∧ e = 'n')) ∨ (escape c = [c] ∧ c ≠ '"' ∧ c ≠ '\\' ∧ c ≠ '\n') := by
  by_cases h1 : c = '"'
  · subst h1; exact .inl ⟨_, rfl, by simp⟩
  · by_cases h2 : c = '\\'
    · subst h2; exact .inl ⟨_, rfl, by simp⟩
    · by_cases h3 : c = '\n'
      · subst h3; exact .inl ⟨_, rfl, by simp⟩
      · exact .inr ⟨by simp [escape, h1, h2, h3], h1, h2, h3⟩
theorem escape_ne_quote (c : Char) (a r : List Char) : escape c ++ a ≠ '"' :: r := by
  rcases escape_cases c with ⟨e, h, -⟩ | ⟨h, h1, -⟩
  · rw [h]; simp
  · rw [h]; simp [h1]
theorem escape_head {x y : Char} {a b : List Char} (h : escape x ++ a = escape y ++ b) : x = y ∧ a = b := by
  rcases escape_cases x with ⟨e, hx, ex⟩ | ⟨hx, x1, x2, x3⟩ <;> rcases escape_cases y with ⟨f, hy, fy⟩ | ⟨hy, y1, y2, y3⟩ <;> rw [hx, hy] at h
  · simp only [List.cons_append, List.nil_append, List.cons.injEq, true_and] at h
    refine ⟨?_, h.2⟩
    obtain ⟨rfl, -⟩ := h
    rcases ex with ⟨rfl, rfl⟩ | ⟨rfl, rfl⟩ | ⟨rfl, rfl⟩ <;> rcases fy with ⟨rfl, h⟩ | ⟨rfl, h⟩ | ⟨rfl, h⟩ <;> first | rfl | exact absurd h (by decide)
  · simp only [List.cons_append, List.nil_append, List.cons.injEq] at h; exact absurd h.1.symm y2
  · simp only [List.cons_append, List.nil_append, List.cons.injEq] at h; exact absurd h.1 x2
  · simp only [List.cons_append, List.nil_append, List.cons.injEq] at h; exact h
theorem escape_inj (a b : List Char) : ∀ {r r' : List Char},
    a.flatMap escape ++ '"' :: r = b.flatMap escape ++ '"' :: r' → a = b ∧ r = r' := by
  induction a generalizing b with
  | nil =>
    intro r r' h
    cases b with
    | nil => simpa using h
    | cons c b =>
      rw [List.flatMap_cons, List.append_assoc] at h
      exact absurd h.symm (escape_ne_quote _ _ _)
  | cons x a ih =>
    intro r r' h
    cases b with
    | nil =>
      rw [List.flatMap_cons, List.append_assoc] at h
      exact absurd h (escape_ne_quote _ _ _)
    | cons y b =>
      rw [List.flatMap_cons, List.flatMap_cons, List.append_assoc, List.append_assoc] at h
      obtain ⟨h1, h2⟩ := escape_head h
      obtain ⟨h3, h4⟩ := ih b h2
      exact ⟨by rw [h1, h3], h4⟩

/-! ## trees -/

/-- Something is shown. -/
def Dbg.shown : Dbg → Bool
  | .nothing => false
  | _ => true
mutual
/-- A tree made of names, numbers, printable strings, lists, tuples and structs with at least one field. -/
def Dbg.wf : Dbg → Bool
  | .nothing => true
  | .num _ => true
  | .word w => isName w
  | .str s => s.toList.all printable
  | .seq xs => Dbg.wfList xs
  | .tup name xs => (isName name || name.toList.isEmpty) && Dbg.wfList xs
  | .struct name fields more => isName name && !more && !fields.isEmpty && Dbg.wfFields fields
  | .map _ => false
  | .raw _ => false
/-- Nothing is only shown as a field. -/
def Dbg.wfList : List Dbg → Bool
  | [] => true
  | x :: xs => x.wf && x.shown && Dbg.wfList xs
def Dbg.wfFields : List (String × Dbg) → Bool
  | [] => true
  | (n, x) :: xs => isName n && x.wf && Dbg.wfFields xs
end

/-- What follows a value: nothing, a separator, or the end of what it is in. -/
def Tail (r : List Char) : Prop :=
  match r with
  | [] => True
  | ',' :: _ | ']' :: _ | ')' :: _ | '\n' :: _ => True
  | ' ' :: '}' :: _ => True
  | _ => False

/-- The identifier or number a text begins with is followed by this. -/
def mark : List Char → Nat
  | '"' :: _ => 1
  | '[' :: _ => 2
  | '(' :: _ => 3
  | ' ' :: '{' :: _ => 4
  | _ => 0

theorem Tail.stops {r : List Char} (h : Tail r) : Stops r := by
  unfold Tail at h
  split at h <;> first | exact (h.elim) | (intro c hc; simp at hc; try subst hc; decide) | skip
theorem Tail.mark {r : List Char} (h : Tail r) : mark r = 0 := by
  unfold Tail at h
  split at h <;> first | exact (h.elim) | rfl
theorem tail_comma (r) : Tail (',' :: r) := trivial
theorem tail_bracket (r) : Tail (']' :: r) := trivial
theorem tail_paren (r) : Tail (')' :: r) := trivial
theorem tail_line (r) : Tail ('\n' :: r) := trivial
theorem tail_brace (r) : Tail (' ' :: '}' :: r) := trivial

/-- The identifier or number a value begins with. -/
def Dbg.lead : Dbg → List Char
  | .num n => decimal n
  | .word w => w.toList
  | .tup name _ => name.toList
  | .struct name _ _ => name.toList
  | _ => []
/-- The rest. -/
def Dbg.rest : Dbg → List Char
  | .str s => '"' :: s.toList.flatMap escape ++ ['"']
  | .seq xs => '[' :: Dbg.renderList xs ++ [']']
  | .tup _ xs => '(' :: Dbg.renderList xs ++ [')']
  | .struct _ fields _ => [' ', '{', ' '] ++ Dbg.renderFields fields ++ [' ', '}']
  | _ => []
/-- Its mark. -/
def Dbg.kind : Dbg → Nat
  | .str _ => 1
  | .seq _ => 2
  | .tup _ _ => 3
  | .struct _ _ _ => 4
  | _ => 0

theorem Dbg.render_eq {a : Dbg} (h : a.wf = true) : a.render = a.lead ++ a.rest := by
  cases a <;> simp_all [Dbg.render, Dbg.lead, Dbg.rest, Dbg.wf]
theorem Dbg.lead_ident {a : Dbg} (h : a.wf = true) : a.lead.all isIdent := by
  cases a with
  | num n => exact decimal_ident n
  | word w => exact name_ident (by simpa [Dbg.wf] using h)
  | tup name xs =>
    simp only [Dbg.wf, Bool.and_eq_true, Bool.or_eq_true] at h
    rcases h.1 with h | h
    · exact name_ident h
    · simp at h; simp [Dbg.lead, h]
  | struct name fs m =>
    simp only [Dbg.wf, Bool.and_eq_true] at h
    exact name_ident h.1.1.1
  | _ => rfl
theorem Dbg.rest_stops (a : Dbg) {r : List Char} (hr : Tail r) : Stops (a.rest ++ r) := by
  cases a with
  | str s => intro c hc; simp [Dbg.rest] at hc; subst hc; decide
  | seq s => intro c hc; simp [Dbg.rest] at hc; subst hc; decide
  | tup n s => intro c hc; simp [Dbg.rest] at hc; subst hc; decide
  | struct n s m => intro c hc; simp [Dbg.rest] at hc; subst hc; decide
  | _ => exact hr.stops
theorem Dbg.rest_mark (a : Dbg) {r : List Char} (hr : Tail r) : QuicSea.mark (a.rest ++ r) = a.kind := by
  cases a with
  | str s => rfl
  | seq s => rfl
  | tup n s => rfl
  | struct n s m => rfl
  | _ => exact hr.mark

/-- Equal texts begin with equal words and go on in the same way. -/
theorem Dbg.split {a b : Dbg} {r r' : List Char} (ha : a.wf = true) (hb : b.wf = true) (hr : Tail r) (hr' : Tail r')
    (h : a.render ++ r = b.render ++ r') : a.lead = b.lead ∧ a.rest ++ r = b.rest ++ r' ∧ a.kind = b.kind := by
  rw [Dbg.render_eq ha, Dbg.render_eq hb, List.append_assoc, List.append_assoc] at h
  obtain ⟨h1, h2⟩ := token (Dbg.lead_ident ha) (Dbg.lead_ident hb) (a.rest_stops hr) (b.rest_stops hr') h
  exact ⟨h1, h2, by rw [← a.rest_mark hr, h2, b.rest_mark hr']⟩

theorem isName_toList_inj {a b : String} (h : a.toList = b.toList) : a = b := String.toList_inj.1 h

/-- A text that is a separator. -/
theorem Dbg.ne_nothing {a : Dbg} {r r' : List Char} (ha : Dbg.wfList [a] = true) (hr : Tail r) (hr' : Tail r') : a.render ++ r ≠ r' := by
  intro h
  simp only [Dbg.wfList, Bool.and_eq_true] at ha
  obtain ⟨h1, _, h3⟩ := Dbg.split (b := .nothing) ha.1.1 rfl hr hr' h
  cases a with
  | nothing => simp [Dbg.shown] at ha
  | num n => exact decimal_ne_nil n h1
  | word w => exact name_ne_nil ha.1.1 h1
  | map m => simp [Dbg.wf] at ha
  | raw m => simp [Dbg.wf] at ha
  | _ => simp [Dbg.kind] at h3

mutual
/-- **The text of a value determines the value**, whatever is printed after it. -/
theorem Dbg.render_inj : ∀ (a b : Dbg) {r r' : List Char}, a.wf = true → b.wf = true → Tail r → Tail r' →
    a.render ++ r = b.render ++ r' → a = b ∧ r = r' := by
  intro a b r r' ha hb hr hr' h
  obtain ⟨h1, h2, h3⟩ := Dbg.split ha hb hr hr' h
  match a, b with
  | .map _, _ => simp [Dbg.wf] at ha
  | .raw _, _ => simp [Dbg.wf] at ha
  | _, .map _ => simp [Dbg.wf] at hb
  | _, .raw _ => simp [Dbg.wf] at hb
  | .nothing, .nothing => exact ⟨rfl, h2⟩
  | .nothing, .num n => exact absurd h1.symm (decimal_ne_nil n)
  | .nothing, .word w => exact absurd h1.symm (name_ne_nil hb)
  | .num n, .nothing => exact absurd h1 (decimal_ne_nil n)
  | .num n, .num m => exact ⟨by rw [decimal_inj h1], h2⟩
  | .num n, .word w => exact absurd h1.symm (name_ne_decimal hb n)
  | .word w, .nothing => exact absurd h1 (name_ne_nil ha)
  | .word w, .num n => exact absurd h1 (name_ne_decimal ha n)
  | .word w, .word v => exact ⟨by rw [String.toList_inj.1 h1], h2⟩
  | .str s, .str t =>
    simp only [Dbg.rest, List.cons_append, List.append_assoc, List.nil_append, List.cons.injEq, true_and] at h2
    obtain ⟨h4, h5⟩ := escape_inj _ _ h2
    exact ⟨by rw [String.toList_inj.1 h4], h5⟩
  | .seq xs, .seq ys =>
    simp only [Dbg.rest, List.cons_append, List.append_assoc, List.nil_append, List.cons.injEq, true_and] at h2
    obtain ⟨h4, h5⟩ := Dbg.renderList_inj xs ys ha hb (tail_bracket r) (tail_bracket r') (by simp) (by simp) h2
    exact ⟨by rw [h4], by simpa using h5⟩
  | .tup n xs, .tup m ys =>
    simp only [Dbg.rest, List.cons_append, List.append_assoc, List.nil_append, List.cons.injEq, true_and] at h2
    simp only [Dbg.wf, Bool.and_eq_true] at ha hb
    obtain ⟨h4, h5⟩ := Dbg.renderList_inj xs ys ha.2 hb.2 (tail_paren r) (tail_paren r') (by simp) (by simp) h2
    exact ⟨by rw [h4, String.toList_inj.1 h1], by simpa using h5⟩
  | .struct n xs p, .struct m ys q =>
    simp only [Dbg.rest, List.cons_append, List.append_assoc, List.nil_append, List.cons.injEq, true_and] at h2
    simp only [Dbg.wf, Bool.and_eq_true] at ha hb
    obtain ⟨h4, h5⟩ := Dbg.renderFields_inj xs ys ha.2 hb.2 (by simpa using ha.1.2) (by simpa using hb.1.2) h2
    have hp : p = q := by
      have := ha.1.1.2; have := hb.1.1.2; simp_all
    exact ⟨by rw [h4, String.toList_inj.1 h1, hp], h5⟩
  | .nothing, .str _ | .nothing, .seq _ | .nothing, .tup _ _ | .nothing, .struct _ _ _
  | .num _, .str _ | .num _, .seq _ | .num _, .tup _ _ | .num _, .struct _ _ _
  | .word _, .str _ | .word _, .seq _ | .word _, .tup _ _ | .word _, .struct _ _ _
  | .str _, .nothing | .str _, .num _ | .str _, .word _ | .str _, .seq _ | .str _, .tup _ _ | .str _, .struct _ _ _
  | .seq _, .nothing | .seq _, .num _ | .seq _, .word _ | .seq _, .str _ | .seq _, .tup _ _ | .seq _, .struct _ _ _
  | .tup _ _, .nothing | .tup _ _, .num _ | .tup _ _, .word _ | .tup _ _, .seq _ | .tup _ _, .str _ | .tup _ _, .struct _ _ _
  | .struct _ _ _, .nothing | .struct _ _ _, .num _ | .struct _ _ _, .word _ | .struct _ _ _, .seq _ | .struct _ _ _, .tup _ _
  | .struct _ _ _, .str _ => simp [Dbg.kind] at h3
theorem Dbg.renderList_inj : ∀ (xs ys : List Dbg) {r r' : List Char}, Dbg.wfList xs = true → Dbg.wfList ys = true → Tail r → Tail r' →
    r.head? ≠ some ',' → r'.head? ≠ some ',' → Dbg.renderList xs ++ r = Dbg.renderList ys ++ r' → xs = ys ∧ r = r' := by
  intro xs ys r r' ha hb hr hr' hc hc' h
  match xs, ys with
  | [], [] => exact ⟨rfl, h⟩
  | [], y :: ys =>
    exfalso
    simp only [Dbg.wfList, Bool.and_eq_true] at hb
    have hy : Dbg.wfList [y] = true := by simp [Dbg.wfList, hb.1.1]; exact hb.1.2
    cases ys with
    | nil => exact Dbg.ne_nothing hy hr' hr h.symm
    | cons z zs =>
      simp only [Dbg.renderList, List.append_assoc, List.nil_append] at h
      exact Dbg.ne_nothing hy (tail_comma _) hr h.symm
  | x :: xs, [] =>
    exfalso
    simp only [Dbg.wfList, Bool.and_eq_true] at ha
    have hx : Dbg.wfList [x] = true := by simp [Dbg.wfList, ha.1.1]; exact ha.1.2
    cases xs with
    | nil => exact Dbg.ne_nothing hx hr hr' h
    | cons z zs =>
      simp only [Dbg.renderList, List.append_assoc, List.nil_append] at h
      exact Dbg.ne_nothing hx (tail_comma _) hr' h
  | [x], [y] =>
    simp only [Dbg.wfList, Bool.and_eq_true] at ha hb
    obtain ⟨h1, h2⟩ := Dbg.render_inj x y ha.1.1 hb.1.1 hr hr' h
    exact ⟨by rw [h1], h2⟩
  | [x], y :: y' :: ys =>
    exfalso
    simp only [Dbg.wfList, Bool.and_eq_true] at ha hb
    simp only [Dbg.renderList, List.append_assoc] at h
    obtain ⟨-, h2⟩ := Dbg.render_inj x y ha.1.1 hb.1.1 hr (tail_comma _) h
    exact hc (by rw [h2]; rfl)
  | x :: x' :: xs, [y] =>
    exfalso
    simp only [Dbg.wfList, Bool.and_eq_true] at ha hb
    simp only [Dbg.renderList, List.append_assoc] at h
    obtain ⟨-, h2⟩ := Dbg.render_inj x y ha.1.1 hb.1.1 (tail_comma _) hr' h
    exact hc' (by rw [← h2]; rfl)
  | x :: x' :: xs, y :: y' :: ys =>
    rw [Dbg.wfList, Bool.and_eq_true, Bool.and_eq_true] at ha hb
    simp only [Dbg.renderList, List.append_assoc, List.cons_append, List.nil_append] at h
    obtain ⟨h1, h2⟩ := Dbg.render_inj x y ha.1.1 hb.1.1 (tail_comma _) (tail_comma _) h
    simp only [List.cons.injEq, true_and] at h2
    obtain ⟨h3, h4⟩ := Dbg.renderList_inj (x' :: xs) (y' :: ys) ha.2 hb.2 hr hr' hc hc' h2
    exact ⟨by rw [h1, h3], h4⟩
theorem Dbg.renderFields_inj : ∀ (xs ys : List (String × Dbg)) {r r' : List Char}, Dbg.wfFields xs = true → Dbg.wfFields ys = true →
    xs ≠ [] → ys ≠ [] → Dbg.renderFields xs ++ ' ' :: '}' :: r = Dbg.renderFields ys ++ ' ' :: '}' :: r' → xs = ys ∧ r = r' := by
  intro xs ys r r' ha hb hx hy h
  have stop : ∀ t, Stops (':' :: t) := fun t c hc => by simp at hc; subst hc; decide
  match xs, ys with
  | [], _ => exact absurd rfl hx
  | _ :: _, [] => exact absurd rfl hy
  | [(n, x)], [(m, y)] =>
    simp only [Dbg.wfFields, Bool.and_eq_true] at ha hb
    simp only [Dbg.renderFields, List.append_assoc, List.cons_append, List.nil_append] at h
    obtain ⟨h1, h2⟩ := token (name_ident ha.1.1) (name_ident hb.1.1) (stop _) (stop _) h
    simp only [List.cons.injEq, true_and] at h2
    obtain ⟨h3, h4⟩ := Dbg.render_inj x y ha.1.2 hb.1.2 (tail_brace _) (tail_brace _) h2
    exact ⟨by rw [String.toList_inj.1 h1, h3], by simpa using h4⟩
  | [(n, x)], (m, y) :: z :: ys =>
    exfalso
    simp only [Dbg.wfFields, Bool.and_eq_true] at ha hb
    simp only [Dbg.renderFields, List.append_assoc, List.cons_append, List.nil_append] at h
    obtain ⟨h1, h2⟩ := token (name_ident ha.1.1) (name_ident hb.1.1) (stop _) (stop _) h
    simp only [List.cons.injEq, true_and] at h2
    obtain ⟨h3, h4⟩ := Dbg.render_inj x y ha.1.2 hb.1.2 (tail_brace _) (tail_comma _) h2
    simp at h4
  | (n, x) :: z :: xs, [(m, y)] =>
    exfalso
    simp only [Dbg.wfFields, Bool.and_eq_true] at ha hb
    simp only [Dbg.renderFields, List.append_assoc, List.cons_append, List.nil_append] at h
    obtain ⟨h1, h2⟩ := token (name_ident ha.1.1) (name_ident hb.1.1) (stop _) (stop _) h
    simp only [List.cons.injEq, true_and] at h2
    obtain ⟨h3, h4⟩ := Dbg.render_inj x y ha.1.2 hb.1.2 (tail_comma _) (tail_brace _) h2
    simp at h4
  | (n, x) :: z :: xs, (m, y) :: v :: ys =>
    rw [Dbg.wfFields, Bool.and_eq_true, Bool.and_eq_true] at ha hb
    simp only [Dbg.renderFields, List.append_assoc, List.cons_append, List.nil_append] at h
    obtain ⟨h1, h2⟩ := token (name_ident ha.1.1) (name_ident hb.1.1) (stop _) (stop _) h
    simp only [List.cons.injEq, true_and] at h2
    obtain ⟨h3, h4⟩ := Dbg.render_inj x y ha.1.2 hb.1.2 (tail_comma _) (tail_comma _) h2
    simp only [List.cons.injEq, true_and] at h4
    obtain ⟨h5, h6⟩ := Dbg.renderFields_inj (z :: xs) (v :: ys) ha.2 hb.2 (by simp) (by simp) h4
    exact ⟨by rw [String.toList_inj.1 h1, h3, h5], h6⟩
end

/-! ## printable -/

theorem printable_ident {c : Char} (h : isIdent c = true) : printable c = true := by
  simp only [isIdent, Char.isAlphanum, Char.isAlpha, Char.isUpper, Char.isLower, Char.isDigit, Bool.or_eq_true, Bool.and_eq_true, decide_eq_true_eq, beq_iff_eq,
    UInt32.le_iff_toNat_le, ge_iff_le] at h
  simp only [printable, Bool.and_eq_true, decide_eq_true_eq]
  rcases h with ((⟨h1, h2⟩ | ⟨h1, h2⟩) | ⟨h1, h2⟩) | rfl
  · simp at h1 h2; omega
  · simp at h1 h2; omega
  · simp at h1 h2; omega
  · decide
theorem printable_escape {c : Char} (h : printable c = true) : ∀ d ∈ escape c, printable d = true := by
  intro d hd
  rcases escape_cases c with ⟨e, h1, h2⟩ | ⟨h1, -⟩
  · rw [h1] at hd
    simp at hd
    rcases hd with rfl | rfl
    · decide
    · rcases h2 with ⟨-, rfl⟩ | ⟨-, rfl⟩ | ⟨-, rfl⟩ <;> decide
  · rw [h1] at hd; simp at hd; rw [hd]; exact h

/-- All characters are printable. -/
def PlainText (t : List Char) : Prop := ∀ c ∈ t, printable c = true
theorem PlainText.append {a b : List Char} (ha : PlainText a) (hb : PlainText b) : PlainText (a ++ b) := fun c hc => (List.mem_append.1 hc).elim (ha c) (hb c)
theorem PlainText.ident {a : List Char} (h : a.all isIdent) : PlainText a := fun c hc => printable_ident (List.all_eq_true.1 h c hc)
theorem PlainText.cons {c : Char} {a : List Char} (hc : printable c = true) (ha : PlainText a) : PlainText (c :: a) := by
  intro d hd
  rcases List.mem_cons.1 hd with rfl | hd
  · exact hc
  · exact ha d hd
theorem PlainText.nil : PlainText [] := nofun
theorem decimal_plain (n : Nat) : PlainText (decimal n) := .ident (decimal_ident n)

mutual
theorem Dbg.render_plain : ∀ a : Dbg, a.wf = true → PlainText a.render
  | .nothing, _ => .nil
  | .num n, _ => decimal_plain n
  | .word w, h => .ident (name_ident h)
  | .str s, h => by
    refine .cons (by decide) (.append ?_ (.cons (by decide) .nil))
    intro c hc
    obtain ⟨d, hd, hc⟩ := List.mem_flatMap.1 hc
    exact printable_escape (List.all_eq_true.1 h d hd) c hc
  | .seq xs, h => .cons (by decide) (.append (Dbg.renderList_plain xs h) (.cons (by decide) .nil))
  | .tup n xs, h => by
    have hl := Dbg.lead_ident h
    simp only [Dbg.wf, Bool.and_eq_true] at h
    exact .append (.append (.ident hl) (.cons (by decide) (Dbg.renderList_plain xs h.2))) (.cons (by decide) .nil)
  | .struct n xs m, h => by
    have hl := Dbg.lead_ident h
    simp only [Dbg.wf, Bool.and_eq_true] at h
    have hx := Dbg.renderFields_plain xs h.2
    simp only [Dbg.render]
    refine .append (.append (.append (.append (.ident hl) ?_) hx) ?_) ?_
    · exact .cons (by decide) (.cons (by decide) (.cons (by decide) .nil))
    · have := h.1.1.2
      simp at this
      subst this
      exact .nil
    · exact .cons (by decide) (.cons (by decide) .nil)
  | .map _, h => by simp [Dbg.wf] at h
  | .raw _, h => by simp [Dbg.wf] at h
theorem Dbg.renderList_plain : ∀ xs : List Dbg, Dbg.wfList xs = true → PlainText (Dbg.renderList xs)
  | [], _ => .nil
  | [x], h => by
    simp only [Dbg.wfList, Bool.and_eq_true] at h
    exact Dbg.render_plain x h.1.1
  | x :: y :: xs, h => by
    rw [Dbg.wfList, Bool.and_eq_true, Bool.and_eq_true] at h
    exact .append (.append (Dbg.render_plain x h.1.1) (.cons (by decide) (.cons (by decide) .nil))) (Dbg.renderList_plain (y :: xs) h.2)
theorem Dbg.renderFields_plain : ∀ xs : List (String × Dbg), Dbg.wfFields xs = true → PlainText (Dbg.renderFields xs)
  | [], _ => .nil
  | [(n, x)], h => by
    simp only [Dbg.wfFields, Bool.and_eq_true] at h
    exact .append (.append (.ident (name_ident h.1.1)) (.cons (by decide) (.cons (by decide) .nil))) (Dbg.render_plain x h.1.2)
  | (n, x) :: y :: xs, h => by
    rw [Dbg.wfFields, Bool.and_eq_true, Bool.and_eq_true] at h
    exact .append (.append (.append (.append (.ident (name_ident h.1.1)) (.cons (by decide) (.cons (by decide) .nil))) (Dbg.render_plain x h.1.2))
      (.cons (by decide) (.cons (by decide) .nil))) (Dbg.renderFields_plain (y :: xs) h.2)
end

end QuicSea
