import Verif.Model.Flags
import Verif.Props.Pretty

/-!
# C125: Debug output with format flags
-/

namespace Rangetools
variable {T : Type}

namespace Flags

theorem isDigit_replicate {k : Nat} {c : Char} (h : c ∈ List.replicate k '0') : c.isDigit := by
  rw [List.eq_of_mem_replicate h]; decide

theorem isDigit_digits {n : Nat} {c : Char} (h : c ∈ Nat.toDigits 10 n) : c.isDigit :=
  Nat.isDigit_of_mem_toDigits (by decide) (by decide) h

/-- Digits with zeros before them. -/
def padded (k n : Nat) : List Char := List.replicate k '0' ++ Nat.toDigits 10 n

theorem isDigit_padded {k n : Nat} {c : Char} (h : c ∈ padded k n) : c.isDigit :=
  (List.mem_append.mp h).elim isDigit_replicate isDigit_digits

theorem value_padded (k n : Nat) : Nat.ofDigitChars 10 (padded k n) 0 = n := by
  rw [padded, Nat.ofDigitChars_append, Nat.ofDigitChars_replicate_zero, Nat.mul_zero, Nat.ofDigitChars_ten_toDigits]

theorem padded_ne_nil (k n : Nat) : padded k n ≠ [] := by
  rw [padded, Ne, List.append_eq_nil_iff]
  exact fun h => Nat.toDigits_ne_nil h.2

/-- The end of the text, or something that is not a digit. -/
def NoDigit (l : List Char) : Prop := ∀ c m, l = c :: m → c.isDigit = false

theorem runs_eq {l m : List Char} (hl : NoDigit l) (hm : NoDigit m) :
    ∀ a b : List Char, (∀ c ∈ a, c.isDigit) → (∀ c ∈ b, c.isDigit) → a ++ l = b ++ m → a = b ∧ l = m := by
  intro a
  induction a with
  | nil =>
    rintro (_ | ⟨c, b⟩) _ hb e
    · exact ⟨rfl, e⟩
    · have := hl c _ e
      rw [hb c (by simp)] at this
      cases this
  | cons c a ih =>
    rintro (_ | ⟨d, b⟩) ha hb e
    · have := hm c _ e.symm
      rw [ha c (by simp)] at this
      cases this
    · simp only [List.cons_append, List.cons.injEq] at e
      obtain ⟨rfl, rfl⟩ := ih b (fun x hx => ha x (List.mem_cons_of_mem _ hx)) (fun x hx => hb x (List.mem_cons_of_mem _ hx)) e.2
      exact ⟨by rw [e.1], rfl⟩

theorem padded_inj {j k x y : Nat} {l m : List Char} (hl : NoDigit l) (hm : NoDigit m)
    (e : padded j x ++ l = padded k y ++ m) : x = y ∧ l = m := by
  obtain ⟨h1, h2⟩ := runs_eq hl hm _ _ (fun _ => isDigit_padded) (fun _ => isDigit_padded) e
  refine ⟨?_, h2⟩
  rw [← value_padded j x, h1, value_padded]

/-- The number of zeros. -/
def zeros (f : Flags) (n : Int) : Nat :=
  if f.zero then f.width - ((f.sign n).length + (Nat.toDigits 10 n.natAbs).length) else 0

theorem number_eq (f : Flags) (n : Int) : f.number n = f.sign n ++ padded (f.zeros n) n.natAbs := by
  unfold number padded zeros
  cases f.zero <;> simp

/-- The digits begin with a digit. -/
theorem padded_head (k n : Nat) : ∃ c r, padded k n = c :: r ∧ c.isDigit := by
  cases h : padded k n with
  | nil => exact absurd h (padded_ne_nil k n)
  | cons c r => exact ⟨c, r, rfl, isDigit_padded (k := k) (n := n) (by rw [h]; simp)⟩

theorem number_inj (f : Flags) {x y : Int} {l m : List Char} (hl : NoDigit l) (hm : NoDigit m)
    (e : f.number x ++ l = f.number y ++ m) : x = y ∧ l = m := by
  rw [number_eq, number_eq] at e
  have ne : ∀ (k n : Nat) (c : Char) (p q : List Char), c.isDigit = false → padded k n ++ p ≠ c :: q := by
    intro k n c p q hc h
    obtain ⟨d, r, hr, hd⟩ := padded_head k n
    rw [hr] at h
    injection h with h _
    rw [h, hc] at hd
    cases hd
  by_cases hx : x < 0 <;> by_cases hy : y < 0 <;> cases hp : f.plus <;>
    simp only [sign, hx, hy, hp, if_true, if_false, Bool.false_eq_true, List.nil_append, List.cons_append, List.cons.injEq] at e
  · obtain ⟨h, h'⟩ := padded_inj hl hm e.2
    exact ⟨by omega, h'⟩
  · obtain ⟨h, h'⟩ := padded_inj hl hm e.2
    exact ⟨by omega, h'⟩
  · exact absurd e.symm (ne _ _ _ _ _ (by decide))
  · exact absurd e.1 (by decide)
  · exact absurd e (ne _ _ _ _ _ (by decide))
  · exact absurd e.1 (by decide)
  · obtain ⟨h, h'⟩ := padded_inj hl hm e
    exact ⟨by omega, h'⟩
  · obtain ⟨h, h'⟩ := padded_inj hl hm e.2
    exact ⟨by omega, h'⟩

/-- A number begins with a digit or a sign. -/
theorem number_head (f : Flags) (n : Int) :
    ∃ c r, f.number n = c :: r ∧ (c.isDigit ∨ c = '-' ∨ c = '+' ∧ f.plus = true) := by
  rw [number_eq]
  obtain ⟨c, r, h, hc⟩ := padded_head (f.zeros n) n.natAbs
  rw [h]
  by_cases hn : n < 0
  · exact ⟨'-', c :: r, by simp [sign, hn], .inr (.inl rfl)⟩
  · cases hp : f.plus with
    | true => exact ⟨'+', c :: r, by simp [sign, hn, hp], .inr (.inr ⟨rfl, rfl⟩)⟩
    | false => exact ⟨c, r, by simp [sign, hn, hp], .inl hc⟩

theorem replicate_inj {d c e : Char} (hc : c ≠ d) (he : e ≠ d) {p q : List Char} :
    ∀ j k : Nat, List.replicate j d ++ c :: p = List.replicate k d ++ e :: q → j = k := by
  intro j
  induction j with
  | zero =>
    rintro (_ | k) h
    · rfl
    · simp only [List.replicate_zero, List.nil_append, List.replicate_succ, List.cons_append, List.cons.injEq] at h
      exact absurd h.1 hc
  | succ j ih =>
    rintro (_ | k) h
    · simp only [List.replicate_zero, List.nil_append, List.replicate_succ, List.cons_append, List.cons.injEq] at h
      exact absurd h.1.symm he
    · simp only [List.replicate_succ, List.cons_append, List.cons.injEq, true_and] at h
      rw [ih k h]

theorem stop_noDigit {l : List Char} (h : Stop l) : NoDigit l := by
  rintro c m rfl
  rcases h with h | ⟨d, k, h, hd⟩
  · cases h
  · injection h with h1 h2
    subst h1
    simp only [List.mem_cons, List.not_mem_nil, or_false] at hd
    rcases hd with rfl | rfl | rfl | rfl <;> decide

theorem fill_noDigit {c : Char} (h : c.isDigit = false) {l : List Char} (hl : NoDigit l) (k : Nat) :
    NoDigit (List.replicate k c ++ l) := by
  cases k with
  | zero => exact hl
  | succ k =>
    rintro d m e
    simp only [List.replicate_succ, List.cons_append, List.cons.injEq] at e
    rw [← e.1, h]

end Flags

/-- C125. Integers print readably with any width, alignment, `+` and `0`, and with any fill that is not a digit or a sign
that numbers can begin with. -/
theorem C125_int_readable (f : Flags) (hd : f.fill.isDigit = false) (hm : f.fill ≠ '-') (hp : f.fill = '+' → f.plus = false) :
    Readable f.int := by
  intro x y l m hl hm' e
  have hl := Flags.stop_noDigit hl
  have hm' := Flags.stop_noDigit hm'
  have head : ∀ n : Int, ∃ c r, f.number n = c :: r ∧ c ≠ f.fill := by
    intro n
    obtain ⟨c, r, h, hc⟩ := f.number_head n
    refine ⟨c, r, h, ?_⟩
    rintro rfl
    rcases hc with hc | hc | ⟨hc, hc'⟩
    · rw [hd] at hc; cases hc
    · exact hm hc
    · rw [hp hc] at hc'; cases hc'
  obtain ⟨c, r, hx, hc⟩ := head x
  obtain ⟨c', r', hy, hc'⟩ := head y
  have e' := e
  simp only [Flags.int, Flags.pad, List.append_assoc] at e'
  have hj := Flags.replicate_inj hc hc' (p := r ++ (List.replicate _ f.fill ++ l)) (q := r' ++ (List.replicate _ f.fill ++ m))
    _ _ (by rw [← List.cons_append, ← List.cons_append, ← hx, ← hy]; exact e')
  rw [hj, List.append_cancel_left_eq] at e'
  obtain ⟨rfl, -⟩ := f.number_inj (Flags.fill_noDigit hd hl _) (Flags.fill_noDigit hd hm' _) e'
  exact ⟨rfl, List.append_cancel_left e⟩

/-- C125. Without flags the text is that of C87. -/
theorem C125_no_flags (n : Int) : ({} : Flags).int n = debugInt n := by
  cases n with
  | ofNat n => simp [Flags.int, Flags.pad, Flags.number, Flags.sign, Flags.before, debugInt]
  | negSucc n => simp [Flags.int, Flags.pad, Flags.number, Flags.sign, Flags.before, debugInt, Int.negSucc_lt_zero]

/-- C125. With only a width, spaces come before the text of C87. -/
theorem C125_only_width (w : Nat) (n : Int) :
    ({ width := w } : Flags).int n = List.replicate (w - (debugInt n).length) ' ' ++ debugInt n := by
  have h : ({ width := w } : Flags).number n = debugInt n := by
    rw [← C125_no_flags]
    simp [Flags.int, Flags.pad, Flags.number, Flags.sign, Flags.before]
  simp [Flags.int, Flags.pad, h, Flags.before]

/-- C125. The text of an integer is as long as the width says, or as the number if that is longer. -/
theorem C125_length (f : Flags) (n : Int) :
    (f.int n).length = max f.width ((f.sign n).length + (Nat.toDigits 10 n.natAbs).length) := by
  have hb : f.before (f.width - (f.number n).length) ≤ f.width - (f.number n).length := by
    unfold Flags.before
    cases f.align <;> simp only <;> omega
  have hn : (f.number n).length = (f.sign n).length + f.zeros n + (Nat.toDigits 10 n.natAbs).length := by
    rw [Flags.number_eq, List.length_append, Flags.padded, List.length_append, List.length_replicate]
    omega
  have hz : f.zeros n ≤ f.width - ((f.sign n).length + (Nat.toDigits 10 n.natAbs).length) := by
    unfold Flags.zeros
    split <;> omega
  simp only [Flags.int, Flags.pad, List.length_append, List.length_replicate]
  omega

/-- Where the fill characters go: `p` before and `q` after. -/
def Flags.Aligned (f : Flags) (p q : Nat) : Prop :=
  match f.align with
  | .left => p = 0
  | .right => q = 0
  | .center => p ≤ q ∧ q ≤ p + 1

theorem Flags.pad_shape (f : Flags) (s : List Char) :
    ∃ p q, f.pad s = List.replicate p f.fill ++ s ++ List.replicate q f.fill ∧ p + q = f.width - s.length ∧ f.Aligned p q := by
  refine ⟨_, _, rfl, ?_, ?_⟩
  · unfold Flags.before
    cases f.align <;> simp only <;> omega
  · unfold Flags.Aligned Flags.before
    cases f.align <;> simp only <;> omega

/-- C125. The text of an integer is fill, the sign, zeros, the digits, and fill: zeros only with `0`, and then no fill; all the
fill on one side, or as much after as before, or one more. -/
theorem C125_shape (f : Flags) (n : Int) : ∃ p z q, f.int n = List.replicate p f.fill ++
      ((if n < 0 then ['-'] else if f.plus = true then ['+'] else []) ++ List.replicate z '0' ++ Nat.toDigits 10 n.natAbs) ++
        List.replicate q f.fill ∧ (f.zero = false → z = 0) ∧ (f.zero = true → p = 0 ∧ q = 0) ∧ f.Aligned p q := by
  obtain ⟨p, q, h, hpq, ha⟩ := f.pad_shape (f.number n)
  refine ⟨p, f.zeros n, q, ?_, ?_, ?_, ha⟩
  · rw [Flags.int, h]
    congr 2
    rw [Flags.number_eq, Flags.padded, List.append_assoc]
    rfl
  · intro hz
    simp [Flags.zeros, hz]
  · intro hz
    have : (f.number n).length = (f.sign n).length + f.zeros n + (Nat.toDigits 10 n.natAbs).length := by
      rw [Flags.number_eq, List.length_append, Flags.padded, List.length_append, List.length_replicate]
      omega
    simp only [Flags.zeros, hz, if_true] at this
    omega

/-- C125. With such flags, and with or without `#`, the texts printed for ranges and sets of integers still tell the values
apart. -/
theorem C125_debug_injective (f : Flags) (hd : f.fill.isDigit = false) (hm : f.fill ≠ '-')
    (hp : f.fill = '+' → f.plus = false) (ty : List Char) (a b : Inner Int) :
    (a.debug .plain f.int ty = b.debug .plain f.int ty ↔ a = b) ∧
      (a.debug .pretty f.int ty = b.debug .pretty f.int ty ↔ a = b) := by
  have hr := C125_int_readable f hd hm hp
  exact ⟨C87_debug_injective hr ty a b,
    (C106_pretty_plain hr hr ty a b).trans (C87_debug_injective hr ty a b)⟩

/-- C125. Names and punctuation take no notice of the flags: the texts of values without elements do not depend on them. -/
theorem C125_no_elements (f g : Flags) (ty : List Char) (a : Inner Int) (h : a = .ur ∨ a = .er ∨ a = .us .full ∨ a = .bs ⟨[]⟩) :
    a.debug .plain f.int ty = a.debug .plain g.int ty ∧ a.debug .pretty f.int ty = a.debug .pretty g.int ty := by
  rcases h with rfl | rfl | rfl | rfl <;> exact ⟨rfl, rfl⟩

/-- C125. With a digit as fill, or with `-` and no `+`, different ranges can print the same text: `{:1>2?}` prints `13..` for
`3..` too, and `{:->3?}` prints `-3..` and `3..` alike. -/
theorem C125_fill_counterexample (ty : List Char) :
    (Inner.lbr (Samples.ci 3)).debug .plain (Flags.int { width := 2, fill := '1' }) ty =
        (Inner.lbr (Samples.ci 13)).debug .plain (Flags.int { width := 2, fill := '1' }) ty ∧
      (Inner.lbr (Samples.ci 3)).debug .plain (Flags.int { width := 3, fill := '-' }) ty =
        (Inner.lbr (Samples.ci (-3))).debug .plain (Flags.int { width := 3, fill := '-' }) ty := by
  have h1 : Flags.int { width := 2, fill := '1' } 3 = Flags.int { width := 2, fill := '1' } 13 := by decide
  have h2 : Flags.int { width := 3, fill := '-' } 3 = Flags.int { width := 3, fill := '-' } (-3) := by decide
  let text : List Char → List Char := fun v =>
    Fmt.plain.struct "LowerBoundedRange" [("start", Fmt.plain.tuple "LowerBound" (Fmt.plain.tuple "Included" v))]
  exact ⟨congrArg text h1, congrArg text h2⟩

-- `{:*^+7?}`, `{:05?}` and `{:<4?}`
example : String.ofList (Flags.int { width := 7, fill := '*', align := .center, plus := true } 42) = "**+42**" ∧
    String.ofList (Flags.int { width := 5, zero := true } (-42)) = "-0042" ∧
    String.ofList (Flags.int { width := 4, align := .left } 42) = "42  " ∧
    String.ofList (Flags.int { width := 1 } 42) = "42" := by decide

example : String.ofList ((Inner.br (Samples.co (-1) 3)).debug .plain (Flags.int { width := 4, zero := true }) "i32".toList) =
    "BoundedRange { start: LowerBound(Included(-001)), end: UpperBound(Excluded(0003)) }" := by decide

-- the hypotheses hold of `{:*^+7?}`
example : ('*' : Char).isDigit = false ∧ ('*' : Char) ≠ '-' ∧ (('*' : Char) = '+' → (true : Bool) = false) := by decide

end Rangetools
